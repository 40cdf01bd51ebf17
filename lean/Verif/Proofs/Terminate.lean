import Verif.Proofs.Build

/-
Building ends for every rule set: no loop of the parser and the generator runs out of
its bound, and only `check_zero_len` reports a rule that matches no characters.

`Trip x Q`: if `x` succeeds its result has `Q`; otherwise its error is not one of those
two.
-/
namespace Lexertl.Term
open PState

/-- Neither out of bound nor the exception of `check_zero_len`. -/
def Fine (e : Fault) : Prop := e ≠ .fuel ∧ e ≠ .throw msgZero

theorem fine_ub (s : String) : Fine (.ub s) := ⟨nofun, nofun⟩

theorem fine_throw {s : String} (h : s ≠ msgZero) : Fine (.throw s) := by
  refine ⟨nofun, ?_⟩
  intro e
  injection e with e
  exact h e

def Trip {α : Type} (x : M α) (Q : α → Prop) : Prop :=
  (∀ a, x = .ok a → Q a) ∧ ∀ e, x = .error e → Fine e

theorem Trip.ok {α : Type} {a : α} {Q : α → Prop} (h : Q a) : Trip (.ok a) Q := by
  refine ⟨?_, nofun⟩
  intro b e
  injection e with e
  exact e ▸ h

theorem Trip.pure {α : Type} {a : α} {Q : α → Prop} (h : Q a) : Trip (Pure.pure a) Q := Trip.ok h

theorem Trip.err {α : Type} {e : Fault} {Q : α → Prop} (h : Fine e) : Trip (.error e) Q := by
  refine ⟨nofun, ?_⟩
  intro b e
  injection e with e
  exact e ▸ h

theorem Trip.ub {α : Type} {s : String} {Q : α → Prop} : Trip (.error (.ub s) : M α) Q := .err (fine_ub s)

theorem Trip.bind {α β : Type} {x : M α} {f : α → M β} {Q : α → Prop} {R : β → Prop} (h : Trip x Q)
    (hf : ∀ a, Q a → Trip (f a) R) : Trip (x >>= f) R := by
  cases x with
  | ok a => exact hf a (h.1 a rfl)
  | error e => exact .err (h.2 e rfl)

theorem Trip.mono {α : Type} {x : M α} {Q R : α → Prop} (h : Trip x Q) (hr : ∀ a, Q a → R a) : Trip x R :=
  ⟨fun a e => hr a (h.1 a e), h.2⟩

theorem Trip.ite {α : Type} {c : Prop} [Decidable c] {x y : M α} {Q : α → Prop} (hx : c → Trip x Q)
    (hy : ¬ c → Trip y Q) : Trip (if c then x else y) Q := by
  split
  · exact hx ‹_›
  · exact hy ‹_›

theorem Trip.option {α β : Type} {o : Option α} {f : α → M β} {y : M β} {Q : β → Prop}
    (hx : ∀ a, o = some a → Trip (f a) Q) (hy : o = none → Trip y Q) :
    Trip (match o with | some a => f a | none => y) Q := by
  cases o with
  | some a => exact hx a rfl
  | none => exact hy rfl

/-! ## Node stores and trees -/

/-- Follow positions are nodes of the store. -/
def HB (h : Heap) : Prop := ∀ c ∈ h, ∀ n ∈ c.follow, n < h.length

/-- First positions are nodes of the store. -/
def TB (h : Heap) (t : Tree) : Prop := ∀ n ∈ t.firstpos, n < h.length

theorem TB.mono {h h' : Heap} {t : Tree} (H : TB h t) (hl : h.length ≤ h'.length) : TB h' t :=
  fun n hn => Nat.lt_of_lt_of_le (H n hn) hl

theorem HB.snoc {h : Heap} (H : HB h) {c : Cell} (hc : ∀ n ∈ c.follow, n < h.length + 1) : HB (h ++ [c]) := by
  intro x hx n hn
  rw [List.length_append, List.length_singleton]
  rcases List.mem_append.1 hx with h1 | h1
  · have := H x h1 n hn; omega
  · rw [List.mem_singleton.1 h1] at hn; exact hc n hn

theorem HB.set {h : Heap} (H : HB h) {i : Nat} {c : Cell} (hc : ∀ n ∈ c.follow, n < h.length) : HB (h.set i c) := by
  intro x hx n hn
  rw [List.length_set]
  rcases List.mem_or_eq_of_mem_set hx with h1 | h1
  · exact H x h1 n hn
  · rw [h1] at hn; exact hc n hn

/-- A store that is at least as large, and whose positions are nodes. -/
def Grown (h h' : Heap) : Prop := h.length ≤ h'.length ∧ HB h'

theorem Grown.trans {a b c : Heap} (h : Grown a b) (h' : Grown b c) : Grown a c :=
  ⟨Nat.le_trans h.1 h'.1, h'.2⟩

theorem Grown.refl {a : Heap} (h : HB a) : Grown a a := ⟨Nat.le_refl _, h⟩

theorem appendFollow {h : Heap} (H : HB h) (n : Nat) {fp : List Nat} (hfp : ∀ m ∈ fp, m < h.length) :
    Trip (h.appendFollow n fp) (Grown h) := by
  unfold Heap.appendFollow
  split
  · exact .ub
  · rename_i c hc
    split
    · refine .ok ⟨by simp, H.set ?_⟩
      intro m hm
      rcases List.mem_append.1 hm with h1 | h1
      · exact H c (List.mem_of_getElem? hc) m h1
      · exact hfp m h1
    · exact .err (fine_throw (by decide))

theorem appendFollowAll (ns : List Nat) : ∀ {h : Heap} {fp : List Nat}, HB h → (∀ m ∈ fp, m < h.length) →
    Trip (h.appendFollowAll ns fp) (Grown h) := by
  induction ns with
  | nil => intro h fp H _; exact .ok (.refl H)
  | cons n ns ih =>
    intro h fp H hfp
    refine (appendFollow H n hfp).bind fun h1 g => ?_
    exact (ih g.2 fun m hm => Nat.lt_of_lt_of_le (hfp m hm) g.1).mono fun _ g' => g.trans g'

theorem setGreedy {h : Heap} (H : HB h) (n : Nat) (g : Greedy) : Trip (h.setGreedy n g) (Grown h) := by
  unfold Heap.setGreedy
  split
  · exact .ub
  · rename_i c hc
    split
    · exact .ok ⟨by simp, H.set fun m hm => H c (List.mem_of_getElem? hc) m hm⟩
    · exact .err (fine_throw (by decide))

theorem setGreedyAll (ns : List Nat) : ∀ {h : Heap} {g : Greedy}, HB h → Trip (h.setGreedyAll ns g) (Grown h) := by
  induction ns with
  | nil => intro h g H; exact .ok (.refl H)
  | cons n ns ih =>
    intro h g H
    exact (setGreedy H n g).bind fun h1 g1 => (ih g1.2).mono fun _ g' => g1.trans g'

/-- The store grows and the tree's first positions are in it. -/
def Made (h : Heap) (r : Heap × Tree) : Prop := Grown h r.1 ∧ TB r.1 r.2

theorem newLeaf {h : Heap} (H : HB h) (nt tk : Nat) (g : Greedy) : Made h (h.newLeaf nt tk g) := by
  refine ⟨⟨by simp [Heap.newLeaf], H.snoc (by simp)⟩, ?_⟩
  intro n hn
  simp only [Heap.newLeaf, Tree.firstpos] at hn ⊢
  split at hn
  · simp at hn
  · simp at hn; simp [hn]

theorem newSeq {h : Heap} {l r : Tree} (H : HB h) (hl : TB h l) (hr : TB h r) :
    Trip (h.newSeq l r) (Made h) := by
  refine (appendFollowAll l.lastpos H hr).bind fun h1 g => ?_
  refine .pure ⟨g, ?_⟩
  intro n hn
  simp only [Tree.firstpos, List.mem_append] at hn
  rcases hn with h2 | h2
  · exact hl.mono g.1 n h2
  · split at h2
    · exact hr.mono g.1 n h2
    · simp at h2

theorem newIter {h : Heap} {t : Tree} (H : HB h) (ht : TB h t) (g : Greedy) : Trip (h.newIter t g) (Made h) := by
  refine (appendFollowAll t.lastpos H ht).bind fun h1 g1 => ?_
  refine (setGreedyAll t.firstpos g1.2).bind fun h2 g2 => ?_
  exact .pure ⟨g1.trans g2, fun n hn => (ht.mono (g1.trans g2).1) n hn⟩

theorem TB.sel {h : Heap} {l r : Tree} (hl : TB h l) (hr : TB h r) : TB h (.sel l r) := by
  intro n hn
  simp only [Tree.firstpos, List.mem_append] at hn
  exact hn.elim (hl n) (hr n)

/-! ## Copying -/

section Copy
open CopyState

/-- What copying the top of the node stack does: an error, or the node is popped. -/
def Copies (nt : Nat) (h : Heap) (ns : List Tree) (ps : List Bool) (fuel : Nat) (x : M CopyState) : Prop :=
  (∃ e, x = .error e ∧ Fine e) ∨ ∃ (h' : Heap) (new' : List Tree) (j : Nat),
    x = run nt (fuel + j) ⟨ns, ps, false, new', h'⟩ ∧ Grown h h' ∧ ∀ t ∈ new', TB h' t

theorem Copies.then {nt : Nat} {h : Heap} {ns ns' : List Tree} {ps ps' : List Bool} {fuel n : Nat} {x : M CopyState}
    (hx : Copies nt h ns ps (fuel + n) x)
    (hf : ∀ (h' : Heap) (new' : List Tree) (j : Nat), HB h' → (∀ t ∈ new', TB h' t) →
      Copies nt h' ns' ps' fuel (run nt (fuel + j + n) ⟨ns, ps, false, new', h'⟩)) :
    Copies nt h ns' ps' fuel x := by
  rcases hx with h1 | ⟨h', new', j, e, g, ht⟩
  · exact .inl h1
  · rcases hf h' new' j g.2 ht with ⟨e', a, b⟩ | ⟨h2, new2, j2, a, b, c⟩
    · refine .inl ⟨e', ?_, b⟩
      rw [e, ← a]; congr 1; omega
    · refine .inr ⟨h2, new2, j2, ?_, g.trans b, c⟩
      rw [e, ← a]; congr 1; omega

/-- What the machine does when it comes back up to `t`. -/
theorem arrive {nt : Nat} {t : Tree}
    (ih : ∀ (h : Heap) (ns : List Tree) (ps : List Bool) (new : List Tree) (fuel : Nat), HB h →
      (∀ t ∈ new, TB h t) → Copies nt h ns ps fuel (run nt (fuel + 4 * t.size) ⟨t :: ns, ps, true, new, h⟩))
    (h : Heap) (ns : List Tree) (ps : List Bool) (new : List Tree) (fuel : Nat) (H : HB h) (hn : ∀ t ∈ new, TB h t) :
    Copies nt h ns ps fuel
      (run nt (fuel + (4 * t.size + 1)) ⟨t :: ns, (if t.isOp then [false] else []) ++ ps, false, new, h⟩) := by
  rw [show fuel + (4 * t.size + 1) = (fuel + 4 * t.size) + 1 from by omega, run_up]
  cases t with
  | leaf n null =>
    simp only [copyNode, Tree.isOp, Bool.false_eq_true, if_false, List.nil_append]
    split
    · rename_i tk g f e
      have m := newLeaf H nt tk g
      refine .inr ⟨_, _, 4 * (Tree.leaf n null).size, rfl, m.1, ?_⟩
      intro t ht
      rcases List.mem_cons.1 ht with rfl | ht
      · exact m.2
      · exact (hn t ht).mono m.1.1
    · exact .inl ⟨_, rfl, fine_ub _⟩
  | fin n => exact .inr ⟨_, _, 4 * (Tree.fin n).size, rfl, .refl H, hn⟩
  | seq l r => exact ih h ns ps new fuel H hn
  | sel l r => exact ih h ns ps new fuel H hn
  | iter t g => exact ih h ns ps new fuel H hn

theorem run_tree (nt : Nat) (t : Tree) : ∀ (h : Heap) (ns : List Tree) (ps : List Bool) (new : List Tree) (fuel : Nat),
    HB h → (∀ t ∈ new, TB h t) →
    Copies nt h ns ps fuel (run nt (fuel + 4 * t.size) ⟨t :: ns, ps, true, new, h⟩) := by
  induction t with
  | leaf n null =>
    intro h ns ps new fuel H hn
    rw [show fuel + 4 * (Tree.leaf n null).size = (fuel + 2 + 1) + 1 from rfl, run_down _ _ _ rfl]
    simp only [traverse, bind, Except.bind]
    rw [run_up]
    simp only [copyNode]
    split
    · rename_i tk g f e
      have m := newLeaf H nt tk g
      refine .inr ⟨_, _, 2, rfl, m.1, ?_⟩
      intro t ht
      rcases List.mem_cons.1 ht with rfl | ht
      · exact m.2
      · exact (hn t ht).mono m.1.1
    · exact .inl ⟨_, rfl, fine_ub _⟩
  | fin n =>
    intro h ns ps new fuel H hn
    exact .inr ⟨_, _, 2, rfl, .refl H, hn⟩
  | iter t g ih =>
    intro h ns ps new fuel H hn
    rw [show fuel + 4 * (Tree.iter t g).size = (fuel + 3 + 4 * t.size) + 1 from by simp [Tree.size]; omega,
      run_down _ _ _ rfl]
    refine Copies.then (n := 3) (ih h (.iter t g :: ns) (true :: ps) new (fuel + 3) H hn) ?_
    intro h' new' j H' hn'
    rw [run_up]
    cases new' with
    | nil => exact .inl ⟨_, rfl, fine_ub _⟩
    | cons t' new' =>
      show Copies _ _ _ _ _ ((h'.newIter t' g >>= fun r => Except.ok _) >>= fun s => _)
      have hm := newIter H' (hn' t' (by simp)) g
      cases e : h'.newIter t' g with
      | error e' => exact .inl ⟨e', rfl, hm.2 e' e⟩
      | ok r =>
        have m := hm.1 r e
        refine .inr ⟨r.1, r.2 :: new', j + 2, rfl, m.1, ?_⟩
        intro t ht
        rcases List.mem_cons.1 ht with rfl | ht
        · exact m.2
        · exact (hn' t (List.mem_cons_of_mem _ ht)).mono m.1.1
  | seq l r ihl ihr =>
    intro h ns ps new fuel H hn
    rw [show fuel + 4 * (Tree.seq l r).size = (fuel + (4 * r.size + 3) + 4 * l.size) + 1 from by
      simp [Tree.size]; omega, run_down _ _ _ rfl]
    refine Copies.then (n := 4 * r.size + 3) (ihl h (r :: .seq l r :: ns)
      ((if r.isOp then [false] else []) ++ true :: ps) new (fuel + (4 * r.size + 3)) H hn) ?_
    intro h' new' j H' hn'
    have := arrive ihr h' (.seq l r :: ns) (true :: ps) new' (fuel + j + 2) H' hn'
    rw [show fuel + j + (4 * r.size + 3) = fuel + j + 2 + (4 * r.size + 1) from by omega]
    have : Copies nt h' (.seq l r :: ns) (true :: ps) (fuel + 2) (run nt (fuel + j + 2 + (4 * r.size + 1))
        ⟨r :: .seq l r :: ns, (if r.isOp then [false] else []) ++ true :: ps, false, new', h'⟩) := by
      rcases this with a | ⟨h2, new2, j2, a, b, c⟩
      · exact .inl a
      · exact .inr ⟨h2, new2, j + j2, by rw [a]; congr 1; omega, b, c⟩
    refine Copies.then (n := 2) this ?_
    intro h' new' j H' hn'
    rw [run_up]
    match new' with
    | [] => exact .inl ⟨_, rfl, fine_ub _⟩
    | [t'] => exact .inl ⟨_, rfl, fine_ub _⟩
    | r' :: l' :: new' =>
      show Copies _ _ _ _ _ ((h'.newSeq l' r' >>= fun r => Except.ok _) >>= fun s => _)
      have hm := newSeq H' (hn' l' (by simp)) (hn' r' (by simp))
      cases e : h'.newSeq l' r' with
      | error e' => exact .inl ⟨e', rfl, hm.2 e' e⟩
      | ok r =>
        have m := hm.1 r e
        refine .inr ⟨r.1, r.2 :: new', j + 1, rfl, m.1, ?_⟩
        intro t ht
        rcases List.mem_cons.1 ht with rfl | ht
        · exact m.2
        · exact (hn' t (List.mem_cons_of_mem _ (List.mem_cons_of_mem _ ht))).mono m.1.1
  | sel l r ihl ihr =>
    intro h ns ps new fuel H hn
    rw [show fuel + 4 * (Tree.sel l r).size = (fuel + (4 * r.size + 3) + 4 * l.size) + 1 from by
      simp [Tree.size]; omega, run_down _ _ _ rfl]
    refine Copies.then (n := 4 * r.size + 3) (ihl h (r :: .sel l r :: ns)
      ((if r.isOp then [false] else []) ++ true :: ps) new (fuel + (4 * r.size + 3)) H hn) ?_
    intro h' new' j H' hn'
    have := arrive ihr h' (.sel l r :: ns) (true :: ps) new' (fuel + j + 2) H' hn'
    rw [show fuel + j + (4 * r.size + 3) = fuel + j + 2 + (4 * r.size + 1) from by omega]
    have : Copies nt h' (.sel l r :: ns) (true :: ps) (fuel + 2) (run nt (fuel + j + 2 + (4 * r.size + 1))
        ⟨r :: .sel l r :: ns, (if r.isOp then [false] else []) ++ true :: ps, false, new', h'⟩) := by
      rcases this with a | ⟨h2, new2, j2, a, b, c⟩
      · exact .inl a
      · exact .inr ⟨h2, new2, j + j2, by rw [a]; congr 1; omega, b, c⟩
    refine Copies.then (n := 2) this ?_
    intro h' new' j H' hn'
    rw [run_up]
    match new' with
    | [] => exact .inl ⟨_, rfl, fine_ub _⟩
    | [t'] => exact .inl ⟨_, rfl, fine_ub _⟩
    | r' :: l' :: new' =>
      refine .inr ⟨h', .sel l' r' :: new', j + 1, rfl, .refl H', ?_⟩
      intro t ht
      rcases List.mem_cons.1 ht with rfl | ht
      · exact (hn' l' (by simp)).sel (hn' r' (by simp))
      · exact hn' t (List.mem_cons_of_mem _ (List.mem_cons_of_mem _ ht))

theorem copy {h : Heap} (H : HB h) (nt : Nat) (t : Tree) : Trip (h.copy nt t) (Made h) := by
  unfold Heap.copy
  have hr := run_tree nt t h [] [] [] 1 H (by simp)
  rw [Nat.add_comm 1] at hr
  rcases hr with ⟨e, a, b⟩ | ⟨h', new', j, a, g, hn⟩
  · rw [a]; exact .err b
  · rw [a, show 1 + j = j + 1 from by omega, run]
    simp only [Bool.false_eq_true, if_false, bind, Except.bind]
    split
    · exact .ok ⟨g, hn _ (by simp)⟩
    · exact .ub

end Copy

/-! ## The parser -/

/-- Positions in the parser's store and trees are nodes; the store has at least `size`
nodes. -/
structure PB (size : Nat) (p : PState) : Prop where
  heap : HB p.heap
  trees : ∀ t ∈ p.trees, TB p.heap t
  size : size ≤ p.heap.length

variable {sz : Nat}

theorem PB.grow {p : PState} (H : PB sz p) {h : Heap} (g : Grown p.heap h) : ∀ t ∈ p.trees, TB h t :=
  fun t ht => (H.trees t ht).mono g.1

theorem PB.push {p : PState} (H : PB sz p) {r : Heap × Tree} (m : Made p.heap r) {ts : List Tree}
    (hs : ∀ t ∈ ts, t ∈ p.trees) : PB sz { p with heap := r.1, trees := r.2 :: ts } := by
  refine ⟨m.1.2, ?_, Nat.le_trans H.size m.1.1⟩
  intro t ht
  rcases List.mem_cons.1 ht with rfl | ht
  · exact m.2
  · exact H.grow m.1 t (hs t ht)

theorem PB.self {p : PState} (H : PB sz p) : PB p.heap.length p := ⟨H.heap, H.trees, Nat.le_refl _⟩

theorem PB.lookup {p : PState} (H : PB sz p) (tr : Traits) (t : Token) : PB sz (p.lookup tr t).1 := by
  unfold PState.lookup
  split <;> exact ⟨H.heap, H.trees, H.size⟩

theorem PB.pushLeaf {p : PState} (H : PB sz p) (tr : Traits) (tk : Nat) (g : Greedy) : PB sz (p.pushLeaf tr tk g) :=
  H.push (newLeaf H.heap tr.nullToken tk g) fun _ h => h

theorem PB.pushRange {p : PState} (H : PB sz p) (tr : Traits) (t : Token) : PB sz (p.pushRange tr t) :=
  (H.lookup tr t).pushLeaf tr _ .yes

theorem sequence {p : PState} (H : PB sz p) : Trip p.sequence (PB sz) := by
  unfold PState.sequence
  split
  · rename_i rhs lhs ts e
    refine (newSeq H.heap (H.trees lhs (by simp [e])) (H.trees rhs (by simp [e]))).bind fun r m => ?_
    exact .ok (H.push m fun t ht => by simp [e, ht])
  · exact .ub

theorem performOr {p : PState} (H : PB sz p) : Trip p.performOr (PB sz) := by
  unfold PState.performOr
  split
  · rename_i rhs lhs ts e
    refine .ok ⟨H.heap, ?_, H.size⟩
    intro t ht
    rcases List.mem_cons.1 ht with rfl | ht
    · exact (H.trees lhs (by simp [e])).sel (H.trees rhs (by simp [e]))
    · exact H.trees t (by simp [e, ht])
  · exact .ub

theorem optional {p : PState} (H : PB sz p) (tr : Traits) (g : Greedy) : Trip (p.optional tr g) (PB sz) := by
  unfold PState.optional
  split
  · rename_i lhs ts e
    refine (setGreedyAll lhs.firstpos H.heap).bind fun h g1 => ?_
    have m := newLeaf g1.2 tr.nullToken tr.nullToken g
    refine .ok ⟨m.1.2, ?_, Nat.le_trans H.size (g1.trans m.1).1⟩
    intro t ht
    rcases List.mem_cons.1 ht with rfl | ht
    · exact ((H.trees lhs (by simp [e])).mono (g1.trans m.1).1).sel m.2
    · exact (H.trees t (by simp [e, ht])).mono (g1.trans m.1).1
  · exact .ub

theorem zeroOrMore {p : PState} (H : PB sz p) (g : Greedy) : Trip (p.zeroOrMore g) (PB sz) := by
  unfold PState.zeroOrMore
  split
  · rename_i t ts e
    refine (newIter H.heap (H.trees t (by simp [e])) g).bind fun r m => ?_
    exact .ok (H.push m fun t ht => by simp [e, ht])
  · exact .ub

theorem oneOrMore {p : PState} (H : PB sz p) (tr : Traits) (g : Greedy) : Trip (p.oneOrMore tr g) (PB sz) := by
  unfold PState.oneOrMore
  split
  · rename_i lhs ts e
    refine (copy H.heap tr.nullToken lhs).bind fun r1 m1 => ?_
    refine (newIter m1.1.2 m1.2 g).bind fun r2 m2 => ?_
    have g2 := m1.1.trans m2.1
    refine (newSeq m2.1.2 ((H.trees lhs (by simp [e])).mono g2.1) m2.2).bind fun r3 m3 => ?_
    exact .ok (H.push ⟨g2.trans m3.1, m3.2⟩ fun t ht => by simp [e, ht])
  · exact .ub

/-- A parser state and a tree of its store. -/
def PT (sz : Nat) (r : PState × Tree) : Prop := PB sz r.1 ∧ TB r.1.heap r.2

theorem PB.withTree {p : PState} (H : PB sz p) {h : Heap} (g : Grown p.heap h) {t : Tree} (ht : TB h t) :
    PB sz { p with heap := h, trees := t :: p.trees } := H.push (r := (h, t)) ⟨g, ht⟩ fun _ h => h

theorem trip_and {α : Type} {x : M α} {P Q : α → Prop} (h : Trip x P) (h' : Trip x Q) : Trip x fun a => P a ∧ Q a :=
  ⟨fun a e => ⟨h.1 a e, h'.1 a e⟩, h.2⟩

/-- `sequence` only makes the store larger. -/
theorem sequence_grow {p : PState} (H : PB sz p) : Trip p.sequence fun q => p.heap.length ≤ q.heap.length := by
  unfold PState.sequence
  split
  · rename_i rhs lhs ts e
    refine (newSeq H.heap (H.trees lhs (by simp [e])) (H.trees rhs (by simp [e]))).bind fun r m => ?_
    exact .ok m.1.1
  · exact .ub

theorem appendCopy {p : PState} {prev : Tree} (H : PB sz p) (hp : TB p.heap prev) (tr : Traits) :
    Trip (p.appendCopy tr prev) (PT sz) := by
  unfold PState.appendCopy
  refine (copy H.heap tr.nullToken prev).bind fun r m => ?_
  have H1 := H.withTree m.1 (hp.mono m.1.1)
  refine (trip_and (sequence H1) (sequence_grow H1)).bind fun q hq => ?_
  exact .ok ⟨hq.1, m.2.mono hq.2⟩

theorem appendCopies (tr : Traits) (n : Nat) : ∀ {p : PState} {prev : Tree}, PB sz p → TB p.heap prev →
    Trip (p.appendCopies tr n prev) (PT sz) := by
  induction n with
  | zero => intro p prev H hp; exact .ok ⟨H, hp⟩
  | succ n ih =>
    intro p prev H hp
    exact (appendCopy H hp tr).bind fun r hr => ih hr.1 hr.2

theorem onTop {p : PState} {prev : Tree} {op : PState → M PState} (H : PB sz p) (hp : TB p.heap prev)
    (hop : ∀ p, PB sz p → Trip (op p) (PB sz)) : Trip (p.onTop prev op) (PT sz) := by
  unfold PState.onTop
  refine (hop _ (H.withTree (.refl H.heap) hp)).bind fun q hq => ?_
  split
  · rename_i t ts e
    exact .ok ⟨⟨hq.heap, fun t ht => hq.trees t (by simp [e, ht]), hq.size⟩, hq.trees _ (by simp [e])⟩
  · exact .ub

theorem repeatTail {p : PState} {prev : Tree} (H : PB sz p) (hp : TB p.heap prev) (tr : Traits) (g : Greedy) (min : Nat)
    (comma : Bool) (max : Nat) : Trip (p.repeatTail tr prev g min comma max) (PT sz) := by
  unfold PState.repeatTail
  refine .ite (fun _ => ?_) fun _ => .ok ⟨H, hp⟩
  refine Trip.bind (Q := PT sz) (.ite (fun _ => appendCopy H hp tr) fun _ => .ok ⟨H, hp⟩) fun r hr => ?_
  refine .ite (fun _ => ?_) fun _ => onTop hr.1 hr.2 fun p hp => zeroOrMore hp g
  exact (onTop hr.1 hr.2 fun p hp => optional hp tr g).bind fun r hr => appendCopies tr _ hr.1 hr.2

theorem repeatCounts {p : PState} (H : PB sz p) (tr : Traits) (g : Greedy) (min : Nat) (comma : Bool) (max : Nat) :
    Trip (p.repeatCounts tr g min comma max) (PB sz) := by
  unfold PState.repeatCounts
  refine .ite (fun _ => .ok H) fun _ => ?_
  refine Trip.bind (Q := PB sz) (.ite (fun _ => optional H tr g) fun _ => .ok H) fun p H => ?_
  split
  · exact .ub
  · rename_i t ts e
    refine (copy H.heap tr.nullToken t).bind fun r m => ?_
    have H1 : PB sz { p with heap := r.1 } := ⟨m.1.2, H.grow m.1, Nat.le_trans H.size m.1.1⟩
    refine (appendCopies tr _ H1 m.2).bind fun r hr => ?_
    refine (repeatTail hr.1 hr.2 tr g min comma max).bind fun r hr => ?_
    exact sequence (hr.1.withTree (.refl hr.1.heap) hr.2)

theorem foldlM_trip {α β : Type} {f : β → α → M β} {Q : β → Prop} (hf : ∀ b a, Q b → Trip (f b a) Q) :
    ∀ (l : List α) {b : β}, Q b → Trip (l.foldlM f b) Q
  | [], _, h => .ok h
  | a :: l, b, h => by
    rw [List.foldlM_cons]
    exact (hf b a h).bind fun b' h' => foldlM_trip hf l h'

theorem pushRow {p : PState} (H : PB sz p) (tr : Traits) (row : List Token) : Trip (p.pushRow tr row) (PB sz) := by
  cases row with
  | nil => exact .ub
  | cons t ts => exact foldlM_trip (fun p t h => sequence (h.pushRange tr t)) ts (H.pushRange tr t)

theorem pushRows {p : PState} (H : PB sz p) (tr : Traits) (d : Slices) : Trip (p.pushRows tr d) (PB sz) := by
  cases d with
  | nil => exact .ub
  | cons row rows =>
    exact (pushRow H tr row).bind fun q hq =>
      foldlM_trip (fun p row h => (pushRow h tr row).bind fun q h => performOr h) rows hq

/-- Weights that go down with every reduction. -/
def weight : TT → Nat
  | .begin => 1 | .regex => 1 | .orexp => 2 | .sequence => 3 | .sub => 4 | .expression => 5 | .repeat_ => 6
  | .dup => 1 | .or_ => 0 | .charset => 8 | .bol => 7 | .eol => 7 | .macro_ => 0 | .openparen => 6
  | .closeparen => 0 | .opt => 2 | .aopt => 2 | .zeroormore => 2 | .azeroormore => 2 | .oneormore => 2
  | .aoneormore => 2 | .repeatn => 2 | .arepeatn => 2 | .end_ => 0

theorem weight_le (t : TT) : weight t ≤ 8 := by cases t <;> decide

def sumW (l : List Tok) : Nat := (l.map fun t => weight t.type).sum

theorem sumW_append (a b : List Tok) : sumW (a ++ b) = sumW a + sumW b := by simp [sumW]

theorem sumW_cons (a : Tok) (b : List Tok) : sumW (a :: b) = weight a.type + sumW b := by simp [sumW]

theorem popHandle (toks : List Tok) : ∀ (handle : List Tok), Trip (PState.popHandle handle toks) fun r =>
    sumW r.1 + sumW r.2 = sumW handle + sumW toks := by
  induction toks with
  | nil => intro _; exact .ub
  | cons rhs stack ih =>
    intro handle
    unfold PState.popHandle
    split
    · exact .ok (by simp [sumW]; omega)
    · rename_i lhs l
      split
      · exact (ih (rhs :: handle)).mono fun r hr => by simp only [sumW_cons] at hr ⊢; omega
      · exact .ok (by simp only [sumW_cons]; omega)
      · exact .ub

theorem reduceHandle {p : PState} (H : PB sz p) (tr : Traits) (handle : List Tok) :
    Trip (p.reduceHandle tr handle) fun r => PB sz r.1 ∧ sumW r.2 < sumW handle := by
  unfold PState.reduceHandle
  split
  · exact .ub
  · rename_i rhs hs
    have hw : sumW hs = ((hs.map Tok.type).map weight).sum := by simp [sumW, List.map_map]; rfl
    rw [sumW_cons]
    have key : ∀ {x : M PState} {new : List Tok} {n : Nat}, Trip x (PB sz) → sumW new < n →
        Trip (do Except.ok (← x, new)) fun r : PState × List Tok => PB sz r.1 ∧ sumW r.2 < n :=
      fun hx hn => hx.bind fun q hq => .ok ⟨hq, hn⟩
    generalize hty : rhs.type = ty
    generalize htl : hs.map Tok.type = tl at hw ⊢
    have one : ∀ t : TT, sumW [newTok t] = weight t := fun t => by simp [sumW, newTok]
    have nil : sumW ([] : List Tok) = 0 := rfl
    split <;> try simp only [List.map_cons, List.map_nil, List.sum_cons, List.sum_nil, weight] at hw
    case h_1 => exact .ok ⟨H, by rw [nil]; simp only [weight]; omega⟩
    case h_2 => exact .ok ⟨H, by rw [nil]; simp only [weight]; omega⟩
    case h_3 => exact .ok ⟨H, by rw [one]; simp only [weight]; omega⟩
    case h_4 => exact key (performOr H) (by rw [one]; simp only [weight]; omega)
    case h_5 => exact .ok ⟨H, by rw [one]; simp only [weight]; omega⟩
    case h_6 => exact .ok ⟨H, by rw [one]; simp only [weight]; omega⟩
    case h_7 => exact key (sequence H) (by rw [one]; simp only [weight]; omega)
    case h_8 => exact .ok ⟨H, by rw [one]; simp only [weight]; omega⟩
    case h_9 => exact .ok ⟨H, by rw [one]; simp only [weight]; omega⟩
    case h_10 => exact .ok ⟨H, by rw [one]; simp only [weight]; omega⟩
    case h_11 => exact .ok ⟨H.pushLeaf tr _ .yes, by rw [one]; simp only [weight]; omega⟩
    case h_12 =>
      have h1 := (H.lookup tr (Token.ofChar 13)).lookup tr (Token.ofChar 10)
      have h2 : ∀ x (c : Prop) [Decidable c] (q : PState), PB sz q → PB sz (if c then { q with crId := x } else q) := by
        intro x c _ q hq; split
        · exact ⟨hq.heap, hq.trees, hq.size⟩
        · exact hq
      have h3 : ∀ x (c : Prop) [Decidable c] (q : PState), PB sz q → PB sz (if c then { q with nlId := x } else q) := by
        intro x c _ q hq; split
        · exact ⟨hq.heap, hq.trees, hq.size⟩
        · exact hq
      exact .ok ⟨PB.pushLeaf (h3 _ _ _ (h2 _ _ _ h1)) tr _ .yes, by rw [one]; simp only [weight]; omega⟩
    case h_13 =>
      refine .ite (fun _ => ?_) fun _ => .ok ⟨H.pushRange tr _, by rw [one]; simp only [weight]; omega⟩
      exact key (pushRows H tr _) (by simp [sumW, newTok, weight]; omega)
    case h_14 => exact .ok ⟨H, by rw [one]; simp only [weight]; omega⟩
    case h_15 => exact key (optional H tr _) (by rw [one]; simp only [weight]; omega)
    case h_16 => exact key (optional H tr _) (by rw [one]; simp only [weight]; omega)
    case h_17 => exact key (zeroOrMore H _) (by rw [one]; simp only [weight]; omega)
    case h_18 => exact key (zeroOrMore H _) (by rw [one]; simp only [weight]; omega)
    case h_19 => exact key (oneOrMore H tr _) (by rw [one]; simp only [weight]; omega)
    case h_20 => exact key (oneOrMore H tr _) (by rw [one]; simp only [weight]; omega)
    case h_21 => exact key (repeatCounts H tr _ _ _ _) (by rw [one]; simp only [weight]; omega)
    case h_22 => exact key (repeatCounts H tr _ _ _ _) (by rw [one]; simp only [weight]; omega)
    all_goals first | exact .ub | exact .err (fine_throw (by decide))

theorem reduce {p : PState} (H : PB sz p) (tr : Traits) (toks : List Tok) :
    Trip (p.reduce tr toks) fun r => PB sz r.1 ∧ sumW r.2 < sumW toks := by
  unfold PState.reduce
  refine (popHandle toks []).bind fun r hr => ?_
  refine (reduceHandle H tr r.1).bind fun q hq => ?_
  refine .ok ⟨hq.1, ?_⟩
  have : sumW ([] : List Tok) = 0 := rfl
  have := hq.2
  show sumW (q.2 ++ r.2) < _
  rw [sumW_append]
  omega

/-- Number of tokens that can still be shifted. -/
def shifts (rhs : Tok) (rest : List Tok) : Nat := if rhs.type = .end_ then 0 else rest.length

theorem prec_end {l : TT} {r : Tok} (h : prec l r.type = .lt ∨ prec l r.type = .eq) : r.type ≠ .end_ := by
  intro e
  rw [e] at h
  cases l <;> simp [prec] at h

theorem parseLoop (tr : Traits) (fuel : Nat) : ∀ {p : PState} {toks : List Tok} {rhs : Tok} {rest : List Tok}, PB sz p →
    (∃ t, rest.getLast? = some t ∧ t.type = .end_) → sumW toks + 9 * shifts rhs rest < fuel →
    Trip (p.parseLoop tr fuel toks rhs rest) (PB sz) := by
  induction fuel with
  | zero => intro p toks rhs rest _ _ h; omega
  | succ fuel ih =>
    intro p toks rhs rest H hlast hf
    unfold PState.parseLoop
    split
    · exact .ok H
    · rename_i lhs l
      have shift : rhs.type ≠ .end_ → Trip (match rest with
          | [] => .error (.ub "dereference of the end iterator")
          | [t] => PState.parseLoop tr fuel p (rhs :: lhs :: l) t [t]
          | t :: ts => PState.parseLoop tr fuel p (rhs :: lhs :: l) t ts) (PB sz) := by
        intro hne
        have hw := weight_le rhs.type
        rw [shifts, if_neg hne] at hf
        split
        · exact .ub
        · rename_i t
          refine ih H hlast ?_
          obtain ⟨t', h1, h2⟩ := hlast
          simp at h1; subst h1
          rw [sumW_cons, shifts, if_pos h2]
          simp at hf
          omega
        · rename_i t ts hts
          refine ih H ?_ ?_
          · cases ts with
            | nil => exact absurd rfl hts
            | cons a ts => rw [List.getLast?_cons_cons] at hlast; exact hlast
          · rw [sumW_cons]
            have : shifts t ts ≤ ts.length := by unfold shifts; split <;> omega
            simp only [List.length_cons] at hf
            omega
      split
      · rename_i e; exact shift (prec_end (.inl e))
      · rename_i e; exact shift (prec_end (.inr e))
      · refine (reduce H tr _).bind fun r hr => ih hr.1 hlast ?_
        have := hr.2
        omega
      · exact .err (fine_throw (by decide))

theorem finish {p : PState} (H : PB sz p) (info : RuleInfo) (g : Greedy) : Trip (p.finish info g) (PT sz) := by
  have H1 : ∀ c : Cell, c.follow = [] → Grown p.heap (p.heap ++ [c]) ∧ TB (p.heap ++ [c]) (.fin p.heap.length) := by
    intro c hc
    refine ⟨⟨by simp, H.heap.snoc (by simp [hc])⟩, ?_⟩
    intro n hn
    simp [Tree.firstpos] at hn
    simp [hn]
  unfold PState.finish
  split
  · exact .ok ⟨⟨(H1 _ rfl).1.2, H.grow (H1 _ rfl).1, Nat.le_trans H.size (H1 _ rfl).1.1⟩, (H1 _ rfl).2⟩
  · rename_i lhs e
    refine (newSeq (H1 _ rfl).1.2 ((H.trees lhs (by simp [e])).mono (H1 _ rfl).1.1) (H1 _ rfl).2).bind fun r m => ?_
    exact .ok ⟨⟨m.1.2, by simp, Nat.le_trans H.size ((H1 _ rfl).1.trans m.1).1⟩, m.2⟩
  · exact .ub

theorem fixupBol {p : PState} {root : Tree} (H : PB sz p) (hr : TB p.heap root) (tr : Traits) :
    Trip (p.fixupBol tr root) (PT sz) := by
  unfold PState.fixupBol
  refine .ite (fun _ => .ok ⟨H, hr⟩) fun _ => ?_
  have m1 := newLeaf H.heap tr.nullToken tr.bolToken .yes
  have m2 := newLeaf m1.1.2 tr.nullToken tr.nullToken .yes
  refine (newSeq m2.1.2 ((m1.2.mono m2.1.1).sel m2.2) (hr.mono (m1.1.trans m2.1).1)).bind fun r m => ?_
  exact .ok ⟨⟨m.1.2, H.grow ((m1.1.trans m2.1).trans m.1), Nat.le_trans H.size ((m1.1.trans m2.1).trans m.1).1⟩, m.2⟩

/-- Regexes as `push` makes them: the last token is the end. -/
def EndsRight (regex : List Tok) : Prop := ∃ t, regex.getLast? = some t ∧ t.type = .end_

theorem parse {p : PState} (H : PB sz p) (tr : Traits) {regex : List Tok} (hr : EndsRight regex) (info : RuleInfo)
    (bol : Bool) : Trip (p.parse tr regex info bol) (PT sz) := by
  unfold PState.parse
  split
  · rename_i t0 t1 rest
    refine Trip.bind (Q := PB sz) (parseLoop tr _ H ?_ ?_) fun q hq => ?_
    · obtain ⟨t, h1, h2⟩ := hr
      refine ⟨t, ?_, h2⟩
      cases rest with
      | nil => simpa using h1
      | cons a rest => simpa [List.getLast?_cons_cons] using h1
    · have h0 := weight_le t0.type
      have : shifts t1 (if rest = [] then [t1] else rest) ≤ rest.length + 1 := by
        unfold shifts
        split
        · omega
        · split
          · simp
          · omega
      simp only [sumW, List.map_cons, List.map_nil, List.sum_cons, List.sum_nil, List.length_cons]
      omega
    · refine (finish hq info _).bind fun r hr => ?_
      exact .ite (fun _ => fixupBol hr.1 hr.2 tr) fun _ => .ok hr
  · exact .ub

theorem buildTreeRest (tr : Traits) (bol : Bool) (rs : List Rule) : ∀ {p : PState} {root : Tree} {uid : Nat},
    PB sz p → TB p.heap root → (∀ r ∈ rs, EndsRight r.regex) →
    Trip (Lexertl.buildTreeRest tr bol rs p root uid) fun r => PT sz (r.1, r.2.1) := by
  induction rs with
  | nil => intro p root uid H hr _; exact .ok ⟨H, hr⟩
  | cons r rs ih =>
    intro p root uid H hr hs
    have hp := parse H.self tr (hs r (by simp)) (r.info (uid + 1)) bol
    unfold Lexertl.buildTreeRest
    refine hp.bind fun q hq => ?_
    exact ih ⟨hq.1.heap, hq.1.trees, Nat.le_trans H.size hq.1.size⟩ ((hr.mono hq.1.size).sel hq.2) fun r h => hs r (List.mem_cons_of_mem _ h)

theorem buildTree (tr : Traits) (bol : Bool) (rs : List Rule) {h : Heap} {uid : Nat} (H : HB h)
    (hs : ∀ r ∈ rs, EndsRight r.regex) :
    Trip (Lexertl.buildTree tr bol rs h uid) fun r => PT h.length (r.1, r.2.1) := by
  cases rs with
  | nil => exact .ub
  | cons r rs =>
    have hp : PB h.length ⟨h, [], tr.npos, tr.npos, []⟩ := ⟨H, by simp, Nat.le_refl _⟩
    refine (parse hp tr (hs r (by simp)) (r.info (uid + 1)) bol).bind fun q hq => ?_
    exact buildTreeRest tr bol rs hq.1 hq.2 fun r h => hs r (List.mem_cons_of_mem _ h)

/-! ## The generator -/

theorem endState (h : Heap) (n : Nat) : Trip (h.endState n) fun _ => True := by
  unfold Heap.endState
  split
  · exact .ok trivial
  · exact .ok trivial
  · exact .ub

theorem token (h : Heap) (n : Nat) : Trip (h.token n) fun _ => True := by
  unfold Heap.token
  split
  · exact .ok trivial
  · exact .err (fine_throw (by decide))
  · exact .ub

theorem followpos (h : Heap) (n : Nat) : Trip (h.followpos n) fun _ => True := by
  unfold Heap.followpos
  split
  · exact .ok trivial
  · exact .ub

theorem mappingAt (sm : List (List Nat)) (i : Nat) : Trip (Lexertl.mappingAt sm i) fun _ => True := by
  unfold Lexertl.mappingAt
  split
  · exact .ok trivial
  · exact .ub

theorem anyEnd (h : Heap) (l : List Nat) : Trip (Lexertl.anyEnd h l) fun _ => True := by
  induction l with
  | nil => exact .ok trivial
  | cons n ns ih =>
    unfold Lexertl.anyEnd
    refine (endState h n).bind fun b _ => ?_
    cases b
    · exact ih
    · exact .pure trivial

/-- Part of a list. -/
def Sub (l r : List Nat) : Prop := r.Sublist l

theorem pruneNLcr (h : Heap) (sm : List (List Nat)) (nl : Nat) (cs : List Nat) : ∀ (l : List Nat),
    Trip (Lexertl.pruneNLcr h sm nl cs l) (Sub l) := by
  induction cs with
  | nil => intro l; exact .ok (.refl l)
  | cons c cs ih =>
    intro l
    unfold Lexertl.pruneNLcr
    refine (endState h c).bind fun b _ => ?_
    refine .ite (fun _ => ih l) fun _ => ?_
    refine (token h c).bind fun tk _ => (mappingAt sm tk).bind fun s _ => ?_
    refine .ite (fun _ => ?_) fun _ => ih l
    refine (followpos h c).bind fun fp _ => (anyEnd h fp).bind fun b _ => ?_
    refine .ite (fun _ => ?_) fun _ => ih l
    cases l with
    | nil => exact .ub
    | cons a l => exact (ih l).mono fun r hr => List.Sublist.cons a hr

theorem pruneNLloop (h : Heap) (sm : List (List Nat)) (cr nl fuel : Nat) : ∀ (l : List Nat), l.length ≤ fuel →
    Trip (Lexertl.pruneNLloop h sm cr nl fuel l) (Sub l) := by
  induction fuel with
  | zero =>
    intro l hl
    rw [List.length_eq_zero_iff.1 (Nat.le_zero.1 hl)]
    exact .ok (.refl _)
  | succ fuel ih =>
    intro l hl
    cases l with
    | nil => exact .ok (.refl _)
    | cons n rest =>
      have hl : rest.length ≤ fuel := by simpa using hl
      unfold Lexertl.pruneNLloop
      refine (endState h n).bind fun b _ => ?_
      refine .ite (fun _ => ?_) fun _ => ?_
      · exact (ih rest hl).bind fun r hr => .pure (List.Sublist.cons_cons n hr)
      · refine (token h n).bind fun tk _ => (mappingAt sm tk).bind fun s _ => ?_
        refine Trip.bind (Q := Sub (n :: rest)) (.ite (fun _ => ?_) fun _ => .ok (.refl _)) fun left hleft => ?_
        · exact (followpos h n).bind fun fp _ => pruneNLcr h sm nl fp _
        · cases left with
          | nil => exact .ok (List.nil_sublist _)
          | cons m left =>
            have h1 : left.length ≤ fuel := by
              have := hleft.length_le
              simp at this
              omega
            have keep : Trip (do return m :: (← Lexertl.pruneNLloop h sm cr nl fuel left)) (Sub (n :: rest)) :=
              (ih left h1).bind fun r hr => .pure ((List.Sublist.cons_cons m hr).trans hleft)
            refine (token h n).bind fun tk _ => (mappingAt sm tk).bind fun s _ => ?_
            refine .ite (fun _ => ?_) fun _ => keep
            refine (followpos h n).bind fun fp _ => (anyEnd h fp).bind fun b _ => ?_
            refine .ite (fun _ => ?_) fun _ => keep
            exact (ih left h1).mono fun r hr => (List.Sublist.cons m hr).trans hleft

theorem eraseEol (tr : Traits) (h : Heap) (l : List Nat) : Trip (Lexertl.eraseEol tr h l) (Sub l) := by
  induction l with
  | nil => exact .ok (.refl _)
  | cons n ns ih =>
    unfold Lexertl.eraseEol
    refine (endState h n).bind fun b _ => ?_
    refine .ite (fun _ => ih.bind fun r hr => .pure (List.Sublist.cons_cons n hr)) fun _ => ?_
    refine (token h n).bind fun tk _ => ?_
    refine .ite (fun _ => ih.mono fun r hr => List.Sublist.cons n hr) fun _ => ?_
    exact ih.bind fun r hr => .pure (List.Sublist.cons_cons n hr)

theorem pruneEolCr (tr : Traits) (h : Heap) (sm : List (List Nat)) (nl : Nat) (cs : List Nat) :
    ∀ (n : Nat) (l : List Nat), Trip (Lexertl.pruneEolCr tr h sm nl cs n l) fun r => Sub l r.2 := by
  induction cs with
  | nil => intro n l; exact .ok (.refl l)
  | cons c cs ih =>
    intro n l
    unfold Lexertl.pruneEolCr
    refine (endState h c).bind fun b _ => ?_
    refine .ite (fun _ => ih n l) fun _ => ?_
    refine (token h c).bind fun tk _ => (mappingAt sm tk).bind fun s _ => ?_
    refine .ite (fun _ => ?_) fun _ => ih n l
    refine (followpos h c).bind fun fp _ => (anyEnd h fp).bind fun b _ => ?_
    refine .ite (fun _ => ?_) fun _ => ih n l
    exact (eraseEol tr h l).bind fun r hr => (ih _ r).mono fun r' hr' => hr'.trans hr

theorem pruneEol (tr : Traits) (h : Heap) (sm : List (List Nat)) (cr nl n : Nat) (l : List Nat) :
    Trip (Lexertl.pruneEol tr h sm cr nl n l) (Sub l) := by
  unfold Lexertl.pruneEol
  refine (token h n).bind fun tk _ => (mappingAt sm tk).bind fun s _ => ?_
  refine Trip.bind (Q := fun r : Nat × List Nat => Sub l r.2) (.ite (fun _ => ?_) fun _ => .ok (List.Sublist.refl l)) fun r hr => ?_
  · exact (followpos h n).bind fun fp _ => pruneEolCr tr h sm nl fp n l
  · refine .ite (fun _ => ?_) fun _ => .ok hr
    refine (followpos h r.1).bind fun fp _ => (anyEnd h fp).bind fun b _ => ?_
    exact .ite (fun _ => (eraseEol tr h r.2).mono fun _ h => h.trans hr) fun _ => .ok hr

theorem pruneEolClashes (tr : Traits) (h : Heap) (sm : List (List Nat)) (cr nl fuel : Nat) : ∀ (l : List Nat),
    l.length ≤ fuel → Trip (Lexertl.pruneEolClashes tr h sm cr nl fuel l) (Sub l) := by
  induction fuel with
  | zero =>
    intro l hl
    rw [List.length_eq_zero_iff.1 (Nat.le_zero.1 hl)]
    exact .ok (.refl _)
  | succ fuel ih =>
    intro l hl
    cases l with
    | nil => exact .ok (.refl _)
    | cons n rest =>
      have hl : rest.length ≤ fuel := by simpa using hl
      unfold Lexertl.pruneEolClashes
      refine (endState h n).bind fun b _ => ?_
      refine .ite (fun _ => (ih rest hl).bind fun r hr => .pure (List.Sublist.cons_cons n hr)) fun _ => ?_
      refine (token h n).bind fun tk _ => ?_
      refine Trip.bind (Q := Sub rest) (.ite (fun _ => pruneNLloop h sm cr nl _ rest (by omega))
        fun _ => pruneEol tr h sm cr nl n rest) fun r hr => ?_
      exact (ih r (Nat.le_trans hr.length_le hl)).bind fun r' hr' => .pure (List.Sublist.cons_cons n (hr'.trans hr))

/-- Follow positions of the sets are nodes. -/
def EB (n : Nat) (e : Equivset) : Prop := ∀ m ∈ e.followpos, m < n

theorem fillRhsEquiv (tr : Traits) {h : Heap} (H : HB h) (sm : List (List Nat)) (l : List Nat) :
    Trip (Lexertl.fillRhsEquiv tr h sm l) fun es => ∀ e ∈ es, EB h.length e := by
  induction l with
  | nil => exact .ok (by simp)
  | cons n ns ih =>
    unfold Lexertl.fillRhsEquiv
    split
    · exact .ub
    · exact ih
    · rename_i tk g fp e
      refine .ite (fun _ => ih) fun _ => ?_
      refine Trip.bind (Q := fun _ => True) (.ite (fun _ => .ok trivial) fun _ => mappingAt sm tk) fun idx _ => ?_
      refine ih.bind fun es hes => .pure ?_
      intro x hx
      rcases List.mem_cons.1 hx with rfl | hx
      · exact H _ (List.mem_of_getElem? e)
      · exact hes x hx

theorem mem_mergeFollow (r : List Nat) : ∀ (l : List Nat) (n : Nat), n ∈ Equivset.mergeFollow l r → n ∈ l ∨ n ∈ r := by
  induction r with
  | nil => intro l n h; exact .inl h
  | cons a r ih =>
    intro l n h
    rcases ih _ n h with h1 | h1
    · simp only at h1
      split at h1
      · exact .inl h1
      · rcases List.mem_append.1 h1 with h2 | h2
        · exact .inl h2
        · exact .inr (by simp [List.mem_singleton.1 h2])
    · exact .inr (List.mem_cons_of_mem _ h1)

theorem intersect {n : Nat} {l r a b c : Equivset} (hl : EB n l) (hr : EB n r)
    (h : Equivset.intersect l r = some (a, b, c)) : EB n a ∧ EB n b ∧ EB n c := by
  unfold Equivset.intersect at h
  simp only at h
  split at h
  · cases h
    exact ⟨hl, hr, by simp [EB]⟩
  · split at h
    · cases h
      refine ⟨?_, ?_, ?_⟩
      · intro m hm
        simp only at hm
        split at hm
        · simp at hm
        · exact hl m hm
      · intro m hm
        simp only at hm
        split at hm
        · simp at hm
        · exact hr m hm
      · intro m hm
        exact (mem_mergeFollow _ _ _ hm).elim (hl m) (hr m)
    · cases h

theorem splitInto {n : Nat} (l : List Equivset) : ∀ {r : Equivset} {res : List Equivset × Equivset}, EB n r →
    (∀ e ∈ l, EB n e) → Lexertl.splitInto Equivset.intersect Equivset.isEmpty r l = some res →
    (∀ e ∈ res.1, EB n e) ∧ EB n res.2 := by
  induction l with
  | nil => intro r res hr _ h; cases h; exact ⟨by simp, hr⟩
  | cons a l ih =>
    intro r res hr hl h
    have ha := hl a (by simp)
    have hl' : ∀ e ∈ l, EB n e := fun e he => hl e (List.mem_cons_of_mem _ he)
    unfold Lexertl.splitInto at h
    split at h
    · cases h; exact ⟨hl, hr⟩
    · split at h
      · cases h
      · rename_i l' r' ov e
        obtain ⟨h1, h2, h3⟩ := intersect ha hr e
        have key : ∀ {pre : List Equivset} {res : List Equivset × Equivset}, (∀ e ∈ pre, EB n e) →
            (Lexertl.splitInto Equivset.intersect Equivset.isEmpty r' l).map (fun p => (pre ++ p.1, p.2)) = some res →
            (∀ e ∈ res.1, EB n e) ∧ EB n res.2 := by
          intro pre res hpre h
          obtain ⟨p, hp, rfl⟩ := Option.map_eq_some_iff.1 h
          have := ih h2 hl' hp
          refine ⟨?_, this.2⟩
          intro e he
          exact (List.mem_append.1 he).elim (hpre e) (this.1 e)
        split at h
        · exact key (pre := [l']) (by simpa using h1) h
        · split at h
          · exact key (pre := [ov]) (by simpa using h3) h
          · split at h
            · cases h
              exact ⟨by simpa using ⟨h1, hl'⟩, h3⟩
            · exact key (pre := [l', ov]) (by simpa using ⟨h1, h3⟩) h

theorem splitLoop {n : Nat} (r : List Equivset) : ∀ {l res : List Equivset}, (∀ e ∈ l, EB n e) → (∀ e ∈ r, EB n e) →
    Lexertl.splitLoop Equivset.intersect Equivset.isEmpty l r = some res → ∀ e ∈ res, EB n e := by
  induction r with
  | nil => intro l res hl _ h; cases h; exact hl
  | cons a r ih =>
    intro l res hl hr h
    unfold Lexertl.splitLoop at h
    split at h
    · cases h
    · rename_i l' r' e
      obtain ⟨h1, h2⟩ := splitInto l (hr a (by simp)) hl e
      refine ih ?_ (fun e he => hr e (List.mem_cons_of_mem _ he)) h
      split
      · exact h1
      · intro e he
        rcases List.mem_append.1 he with he | he
        · exact h1 e he
        · rw [List.mem_singleton.1 he]; exact h2

theorem buildEquivList (tr : Traits) {h : Heap} (H : HB h) (sm : List (List Nat)) (v : List Nat) :
    Trip (Lexertl.buildEquivList tr h sm v) fun es => ∀ e ∈ es, EB h.length e := by
  unfold Lexertl.buildEquivList
  refine (fillRhsEquiv tr H sm v).bind fun es hes => ?_
  split
  · rename_i l e
    refine .ok ?_
    cases es with
    | nil => cases e; simp
    | cons a es =>
      exact splitLoop es (by simpa using hes a (by simp)) (fun e he => hes e (List.mem_cons_of_mem _ he)) e
  · exact .ub

/-- The states found so far: different sets of nodes. -/
structure SB (E : DfaEnv) (D : DState) : Prop where
  hsh : D.hashes = D.seen.map (hashOf E.addr)
  nodup : ∀ v ∈ D.seen, v.Nodup
  lt : ∀ v ∈ D.seen, ∀ n ∈ v, n < E.heap.length
  dist : D.seen.Pairwise fun a b => sameSet a b = false

theorem firstEnd (h : Heap) (l : List Nat) : Trip (Lexertl.firstEnd h l) fun _ => True := by
  induction l with
  | nil => exact .ok trivial
  | cons n ns ih =>
    unfold Lexertl.firstEnd
    split
    · exact .ub
    · exact .ok trivial
    · exact ih

theorem closure {E : DfaEnv} {D : DState} {fp : List Nat} (H : SB E D) (hfp : ∀ n ∈ fp, n < E.heap.length) :
    Trip (Lexertl.closure E D fp) fun r => SB E r.2 ∧ D.seen.length ≤ r.2.seen.length := by
  unfold Lexertl.closure
  split
  · exact .ok ⟨H, Nat.le_refl _⟩
  · refine (firstEnd E.heap fp).bind fun e _ => ?_
    have hnd : (dedup [] fp).Nodup := nodup_dedup fp [] (by simp)
    have hf := findSeen_spec E.addr (dedup [] fp) hnd D.seen H.nodup
    rw [← H.hsh] at hf
    simp only
    generalize (match e with
      | some (.fin _ _ u ..) => if E.allowSuppressed then D.used else setInsert u D.used
      | _ => D.used) = used
    show Trip (match findSeen (hashOf E.addr (dedup [] fp)) (dedup [] fp) D.hashes D.seen with
      | some i => _
      | none => _) _
    cases e' : findSeen (hashOf E.addr (dedup [] fp)) (dedup [] fp) D.hashes D.seen with
    | some i => exact .ok ⟨⟨H.hsh, H.nodup, H.lt, H.dist⟩, Nat.le_refl _⟩
    | none =>
      rw [e'] at hf
      refine .ok ⟨⟨?_, ?_, ?_, ?_⟩, by simp⟩
      · simp only [List.map_append, List.map_cons, List.map_nil, H.hsh]; rfl
      · intro v hv
        rcases List.mem_append.1 hv with h1 | h1
        · exact H.nodup v h1
        · rw [List.mem_singleton.1 h1]; exact hnd
      · intro v hv n hn
        rcases List.mem_append.1 hv with h1 | h1
        · exact H.lt v h1 n hn
        · rw [List.mem_singleton.1 h1, mem_dedup] at hn
          exact hn.elim (by simp) (hfp n)
      · rw [List.pairwise_append]
        refine ⟨H.dist, by simp, ?_⟩
        intro a ha b hb
        rw [List.mem_singleton.1 hb]
        have := List.findIdx?_eq_none_iff.1 hf.symm a ha
        simpa using this

theorem setCell (rows : List Row) (r c v : Nat) : Trip (Lexertl.setCell rows r c v) fun _ => True := by
  unfold Lexertl.setCell
  split
  · exact .ub
  · exact .ite (fun _ => .ok trivial) fun _ => .ub

theorem getCell (rows : List Row) (r c : Nat) : Trip (Lexertl.getCell rows r c) fun _ => True := by
  unfold Lexertl.getCell
  split
  · exact .ub
  · split
    · exact .ok trivial
    · exact .ub

theorem setTransitions (E : DfaEnv) (t index : Nat) (is : List Nat) : ∀ (D : DState),
    Trip (Lexertl.setTransitions E t index is D) fun D' => D'.seen = D.seen ∧ D'.hashes = D.hashes := by
  induction is with
  | nil => intro D; exact .ok ⟨rfl, rfl⟩
  | cons i is ih =>
    intro D
    unfold Lexertl.setTransitions
    refine .ite (fun _ => (setCell _ _ _ _).bind fun _ _ => ih _) fun _ => ?_
    exact .ite (fun _ => (setCell _ _ _ _).bind fun _ _ => ih _) fun _ => (setCell _ _ _ _).bind fun _ _ => ih _

theorem buildState {E : DfaEnv} (index : Nat) (es : List Equivset) : ∀ {D : DState}, SB E D →
    (∀ e ∈ es, EB E.heap.length e) →
    Trip (Lexertl.buildState E index es D) fun D' => SB E D' ∧ D.seen.length ≤ D'.seen.length := by
  induction es with
  | nil => intro D H _; exact .ok ⟨H, Nat.le_refl _⟩
  | cons e es ih =>
    intro D H hes
    have hes' : ∀ e ∈ es, EB E.heap.length e := fun e he => hes e (List.mem_cons_of_mem _ he)
    unfold Lexertl.buildState
    refine (pruneEolClashes E.tr E.heap E.mapping E.cr E.nl _ e.followpos (Nat.le_refl _)).bind fun fp hfp => ?_
    refine (closure H fun n hn => hes e (by simp) n (hfp.subset hn)).bind fun r hr => ?_
    obtain ⟨t, D1⟩ := r
    have go : ∀ D2 : DState, SB E D2 → D1.seen.length ≤ D2.seen.length →
        Trip (Lexertl.buildState E index es D2) fun D' => SB E D' ∧ D.seen.length ≤ D'.seen.length :=
      fun D2 h2 hl => (ih h2 hes').mono fun D' h => ⟨h.1, Nat.le_trans hr.2 (Nat.le_trans hl h.2)⟩
    cases t with
    | none => exact go D1 hr.1 (Nat.le_refl _)
    | some t =>
      refine (getCell D1.rows (index + 1) 0).bind fun c _ => ?_
      refine .ite (fun _ => go D1 hr.1 (Nat.le_refl _)) fun _ => ?_
      refine (setTransitions E t index e.indexVector D1).bind fun D2 h2 => go D2 ?_ (by rw [h2.1]; exact Nat.le_refl _)
      exact ⟨by rw [h2.1, h2.2]; exact hr.1.hsh, by rw [h2.1]; exact hr.1.nodup, by rw [h2.1]; exact hr.1.lt,
        by rw [h2.1]; exact hr.1.dist⟩

theorem buildStates {E : DfaEnv} (HE : HB E.heap) (fuel : Nat) : ∀ {index : Nat} {D : DState}, SB E D →
    index ≤ D.seen.length → 2 ^ E.heap.length < fuel + index → Trip (Lexertl.buildStates E fuel index D) fun _ => True := by
  induction fuel with
  | zero =>
    intro index D H hi hf
    have := subsets_le E.heap.length D.seen H.lt H.dist
    omega
  | succ fuel ih =>
    intro index D H hi hf
    unfold Lexertl.buildStates
    split
    · exact .ok trivial
    · rename_i v hv
      refine (buildEquivList E.tr HE E.mapping v).bind fun es hes => ?_
      refine (buildState index es H hes).bind fun D' hD => ih hD.1 ?_ (by omega)
      have := (List.getElem?_eq_some_iff.1 hv).1
      have := hD.2
      omega

theorem firstClass (sm : List (List Nat)) (id : Nat) : Trip (Lexertl.firstClass sm id) fun _ => True := by
  unfold Lexertl.firstClass
  refine (mappingAt sm id).bind fun s _ => ?_
  split
  · exact .ub
  · exact .ok trivial

theorem prepareDfa (tr : Traits) (useLookup : Bool) (m : CharsetMap) (cr nl : Nat) :
    Trip (Lexertl.prepareDfa tr useLookup m cr nl) fun _ => True := by
  unfold Lexertl.prepareDfa
  split
  · exact .ub
  · split
    · refine Trip.bind (Q := fun _ => True) (.ite (fun _ => firstClass _ _) fun _ => .ok trivial) fun _ _ => ?_
      refine Trip.bind (Q := fun _ => True) (.ite (fun _ => firstClass _ _) fun _ => .ok trivial) fun _ _ => ?_
      refine Trip.bind (Q := fun _ => True) (.ite (fun _ => ?_) fun _ => .ok trivial) fun _ _ => .ok trivial
      split
      · exact .ub
      · exact firstClass _ _
    · exact .ub

theorem fixClash (cr nl : Nat) (rows : List Row) (eol : Nat) : Trip (Lexertl.fixClash cr nl rows eol) fun _ => True := by
  unfold Lexertl.fixClash
  refine (getCell _ _ _).bind fun _ _ => (getCell _ _ _).bind fun _ _ => (getCell _ _ _).bind fun _ _ => ?_
  refine Trip.bind (Q := fun _ => True) (.ite (fun _ => ?_) fun _ => .ok trivial) fun _ _ => ?_
  · refine (setCell _ _ _ _).bind fun _ _ => (getCell _ _ _).bind fun _ _ => ?_
    exact Trip.bind (Q := fun _ => True) (.ite (fun _ => setCell _ _ _ _) fun _ => .ok trivial) fun _ _ => .ok trivial
  · refine .ite (fun _ => ?_) fun _ => .ok trivial
    refine (setCell _ _ _ _).bind fun _ _ => (getCell _ _ _).bind fun _ _ => ?_
    exact .ite (fun _ => setCell _ _ _ _) fun _ => .ok trivial

theorem followZero (z n : Nat) (rows : List Row) (fuel : Nat) : ∀ (ptr i : Nat),
    Trip (Lexertl.followZero z n rows fuel ptr i) fun _ => True := by
  induction fuel with
  | zero => intro ptr i; exact .ok trivial
  | succ fuel ih =>
    intro ptr i
    unfold Lexertl.followZero
    exact .ite (fun _ => (getCell _ _ _).bind fun _ _ => ih _ _) fun _ => .ok trivial

theorem hangChain (c24 : Bool) (size z id st es : Nat) (rows : List Row) :
    Trip (Lexertl.hangChain c24 size z id st es rows) fun _ => True := by
  unfold Lexertl.hangChain
  refine (getCell _ _ _).bind fun _ _ => .ite (fun _ => .ok trivial) fun _ => ?_
  refine (setCell _ _ _ _).bind fun _ _ => ?_
  refine Trip.bind (Q := fun _ => True) (.ite (fun _ => (setCell _ _ _ _).bind fun _ _ => .ok trivial)
    fun _ => .ok trivial) fun _ _ => ?_
  exact (setCell _ _ _ _).bind fun _ _ => .ok trivial

theorem fixClashesComp (c24 : Bool) (size cr nl z : Nat) (eols : List Nat) : ∀ (i : Nat) (rows : List Row),
    Trip (Lexertl.fixClashesComp c24 size cr nl z eols i rows) fun _ => True := by
  induction eols with
  | nil => intro i rows; exact .ok trivial
  | cons eol eols ih =>
    intro i rows
    unfold Lexertl.fixClashesComp
    refine (getCell _ _ _).bind fun _ _ => (followZero _ _ _ _ _ _).bind fun _ _ => (getCell _ _ _).bind fun _ _ => ?_
    refine Trip.bind (Q := fun _ => True) (.ite (fun _ => hangChain _ _ _ _ _ _ _) fun _ => .ok trivial) fun r _ => ?_
    split
    · exact ih _ _
    · refine (getCell _ _ _).bind fun _ _ => ?_
      refine Trip.bind (Q := fun _ => True) (.ite (fun _ => hangChain _ _ _ _ _ _ _) fun _ => .ok trivial) fun r _ => ?_
      split
      · exact ih _ _
      · exact ih _ _

theorem buildDfa (tr : Traits) (useLookup sup : Bool) (addr : Nat → Nat) {heap : Heap} (H : HB heap) (m : CharsetMap)
    (cr nl : Nat) {root : Tree} (hr : TB heap root) (used : List Nat) :
    Trip (Lexertl.buildDfa tr useLookup sup addr heap m cr nl root used) fun _ => True := by
  unfold Lexertl.buildDfa
  refine (prepareDfa _ _ _ _ _).bind fun r _ => ?_
  obtain ⟨classes, mapping, lk, cr, nl, z⟩ := r
  refine .ite (fun _ => .err (fine_throw (by decide))) fun _ => ?_
  refine (closure (fp := root.firstpos) (D := ⟨_, [], [], used, []⟩) (E := ⟨_, heap, _, _, _, _, _, _⟩)
    ⟨rfl, by simp, by simp, by simp⟩ hr).bind fun r hr => ?_
  refine (buildStates H _ hr.1 (Nat.zero_le _) (by simp)).bind fun D _ => ?_
  refine Trip.bind (Q := fun _ => True) (.ite (fun _ => fixClashesComp _ _ _ _ _ _ _ _) fun _ => ?_)
    fun _ _ => .ok trivial
  exact foldlM_trip (fun b a _ => fixClash _ _ _ _) _ trivial

/-! ## All lexer states -/

theorem checkZeroLen (z : Bool) (h : Heap) (root : Tree) : Lexertl.checkZeroLen z h root ≠ .error .fuel := by
  unfold Lexertl.checkZeroLen
  cases z with
  | true => simp
  | false =>
    have := anyEnd h root.firstpos
    cases e : Lexertl.anyEnd h root.firstpos with
    | error e' => exact fun h => (this.2 e' e).1 (by simpa [bind, Except.bind] using h)
    | ok b => cases b <;> simp [bind, Except.bind]

theorem nf_bind {α β : Type} {x : M α} {f : α → M β} (hx : x ≠ .error .fuel)
    (hf : ∀ a, x = .ok a → f a ≠ .error .fuel) : (x >>= f) ≠ .error .fuel := by
  cases x with
  | ok a => exact hf a rfl
  | error e =>
    intro h
    have h : (Except.error e : M β) = .error .fuel := h
    injection h with h
    exact hx (by rw [h])

theorem buildLoop_fuel (tr : Traits) (ul : Bool) (addr : Nat → Nat) (R : Rules) (rss : List (List Rule)) :
    ∀ (feats : List Nat) (B : BuildState), HB B.heap → (∀ rs ∈ rss, ∀ r ∈ rs, EndsRight r.regex) →
    Lexertl.buildLoop tr ul addr R rss feats B ≠ .error .fuel := by
  induction rss with
  | nil => intro feats B _ _; simp [Lexertl.buildLoop]
  | cons rs rss ih =>
    intro feats B H hs
    unfold Lexertl.buildLoop
    split
    · simp
    have ht := buildTree tr (hasBit (feats.headD 0) 1) rs (uid := B.uniqueId) H (hs rs (by simp))
    refine nf_bind (fun h => (ht.2 _ h).1 rfl) fun r hr => ?_
    have h1 := ht.1 r hr
    refine nf_bind (checkZeroLen _ _ _) fun _ _ => ?_
    have hd := buildDfa tr ul R.allowSuppressed addr h1.1.heap r.1.charsets r.1.crId r.1.nlId h1.2 B.used
    refine nf_bind (fun h => (hd.2 _ h).1 rfl) fun out _ => ?_
    split
    · simp
    · exact ih _ _ h1.1.heap fun rs h => hs rs (List.mem_cons_of_mem _ h)

theorem buildTemp_fuel {tr : Traits} {addr : Nat → Nat} {R : Rules}
    (hs : ∀ rs ∈ R.states, ∀ r ∈ rs, EndsRight r.regex) : buildTemp tr addr R ≠ .error .fuel := by
  unfold buildTemp
  refine nf_bind (buildLoop_fuel tr true addr R R.states R.features ⟨[], [], 0, []⟩ (by simp [HB]) hs) fun B _ => ?_
  refine nf_bind ?_ fun _ _ => by simp
  unfold checkSuppressed
  split
  · simp
  · split <;> simp

end Lexertl.Term
