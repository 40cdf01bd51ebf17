import Verif.Proofs.Terminate
import Verif.Proofs.Whole
import Verif.Proofs.Shape
import Verif.Spec.Build
import Verif.Proofs.LexG
import Verif.Proofs.RulesSet

/-
`check_zero_len`: which rules it reports.  Unlike the words of a rule in general, this
does not depend on where `^` and `$` stand.
-/
namespace Lexertl.Null
open Spec PState

/-- The end nodes among the first positions of a tree are known, and there is one exactly
if `z`. -/
def Starts (h : Heap) (t : Tree) (z : Prop) : Prop :=
  (∀ n ∈ t.firstpos, ∃ b, h.endState n = .ok b) ∧ ((∃ n ∈ t.firstpos, h.endState n = .ok true) ↔ z)

theorem endState_tok {h : Heap} {n tk : Nat} (e : h.tokOf n = some tk) : h.endState n = .ok false := by
  unfold Heap.tokOf at e
  unfold Heap.endState
  split at e <;> simp_all

theorem endState_fin {h : Heap} {n : Nat} {d : NodeData} (e : h.finOf n = some d) : h.endState n = .ok true := by
  unfold Heap.finOf at e
  unfold Heap.endState
  split at e
  · rename_i h1
    rw [h1]
  · cases e

theorem endState_append {h e : Heap} {n : Nat} {b : Bool} (hb : h.endState n = .ok b) : (h ++ e).endState n = .ok b := by
  unfold Heap.endState at *
  have : n < h.length := by
    cases h' : h[n]? with
    | none => rw [h'] at hb; cases hb
    | some x => exact (List.getElem?_eq_some_iff.1 h').1
  rw [List.getElem?_append_left this]
  exact hb

theorem Starts.append {h e : Heap} {t : Tree} {z : Prop} (H : Starts h t z) : Starts (h ++ e) t z := by
  refine ⟨fun n hn => ?_, ?_⟩
  · obtain ⟨b, hb⟩ := H.1 n hn
    exact ⟨b, endState_append hb⟩
  · rw [← H.2]
    constructor
    · rintro ⟨n, hn, h1⟩
      obtain ⟨b, hb⟩ := H.1 n hn
      have := endState_append (e := e) hb
      rw [h1] at this
      injection this with this
      subst this
      exact ⟨n, hn, hb⟩
    · rintro ⟨n, hn, h1⟩
      exact ⟨n, hn, endState_append h1⟩

theorem Starts.sel {h : Heap} {l r : Tree} {a b : Prop} (hl : Starts h l a) (hr : Starts h r b) :
    Starts h (.sel l r) (a ∨ b) := by
  refine ⟨fun n hn => ?_, ?_⟩
  · simp only [Tree.firstpos, List.mem_append] at hn
    exact hn.elim (hl.1 n) (hr.1 n)
  · rw [← hl.2, ← hr.2]
    simp only [Tree.firstpos, List.mem_append]
    constructor
    · rintro ⟨n, h1 | h1, h2⟩
      · exact .inl ⟨n, h1, h2⟩
      · exact .inr ⟨n, h1, h2⟩
    · rintro (⟨n, h1, h2⟩ | ⟨n, h1, h2⟩)
      · exact ⟨n, .inl h1, h2⟩
      · exact ⟨n, .inr h1, h2⟩

theorem Starts.anyEnd {h : Heap} {t : Tree} {z : Prop} (H : Starts h t z) :
    ∃ b, Lexertl.anyEnd h t.firstpos = .ok b ∧ (b = true ↔ z) := by
  obtain ⟨h1, h2⟩ := H
  rw [← h2]
  clear h2
  generalize t.firstpos = l at h1
  induction l with
  | nil => exact ⟨false, rfl, by simp⟩
  | cons n l ih =>
    obtain ⟨b, hb⟩ := h1 n (by simp)
    obtain ⟨c, c1, c2⟩ := ih fun m hm => h1 m (by simp [hm])
    unfold Lexertl.anyEnd
    rw [hb]
    cases b with
    | true => exact ⟨true, rfl, by simp only [true_iff]; exact ⟨n, by simp, hb⟩⟩
    | false =>
      refine ⟨c, c1, c2.trans ?_⟩
      constructor
      · rintro ⟨m, hm, e⟩; exact ⟨m, by simp [hm], e⟩
      · rintro ⟨m, hm, e⟩
        rcases List.mem_cons.1 hm with rfl | hm
        · rw [hb] at e; injection e with e; cases e
        · exact ⟨m, hm, e⟩

/-- The end node put after the tree of the regex. -/
theorem finish (tr : Traits) (h0 : Heap) (p : PState) (t : Tree) (info : RuleInfo) (g : Greedy) (hp : p.trees = [t])
    (hf : Fresh tr.nullToken h0 p.heap t) :
    ∃ h', p.finish info g = .ok ({ p with heap := h', trees := [] }, .seq t (.fin p.heap.length)) ∧
      (∃ x, h' = h0 ++ x) ∧ (Tree.seq t (.fin p.heap.length)).Lay tr.nullToken h' ∧
      (∀ n ∈ (Tree.seq t (.fin p.heap.length)).pos, h0.length ≤ n) ∧
      Starts h' (.seq t (.fin p.heap.length)) (t.nullable = true) := by
  have hlt : ∀ n ∈ t.pos, n < p.heap.length := hf.lt
  obtain ⟨h1, hh1⟩ : ∃ h1 : Heap, h1 = p.heap ++ [⟨.fin info.id info.userId info.uniqueId info.nextDfa
    info.pushDfa info.popDfa g, []⟩] := ⟨_, rfl⟩
  have hfin1 : h1.finOf p.heap.length = some (.fin info.id info.userId info.uniqueId info.nextDfa
      info.pushDfa info.popDfa g) := by rw [hh1]; simp [Heap.finOf]
  have hlayF : (Tree.fin p.heap.length).Lay tr.nullToken h1 := by
    refine ⟨⟨_, hfin1⟩, by simp [Tree.pos], ?_⟩
    intro n hn
    simp [Tree.pos] at hn
    subst hn
    rw [hh1]; simp [Heap.fol, Tree.follow]
  have hlayT : t.Lay tr.nullToken h1 := by rw [hh1]; exact hf.lay.append _
  obtain ⟨h2, a1, a2, a3, a4, a5⟩ := Heap.newSeq_lay tr.nullToken h1 t (.fin p.heap.length) hlayT hlayF
    hf.noFin (by intro n hn h; simp [Tree.pos] at h; have := hlt n hn; omega)
  have hge : ∀ n ∈ (Tree.seq t (.fin p.heap.length)).pos, h0.length ≤ n := by
    intro n hn
    simp only [Tree.pos, List.mem_append, List.mem_singleton] at hn
    rcases hn with hn | rfl
    · exact hf.ge n hn
    · obtain ⟨e, he⟩ := hf.ext; rw [he]; simp
  have hleaf : ∀ n ∈ t.firstpos, h2.endState n = .ok false := by
    intro n hn
    obtain ⟨tk, htk⟩ := hlayT.wf.tok hf.noFin n (Tree.firstpos_sub t n hn)
    exact endState_tok ((a4 n).1.trans htk)
  have hend : h2.endState p.heap.length = .ok true := endState_fin ((a4 _).2.2.trans hfin1)
  refine ⟨h2, ?_, ?_, a2, hge, ?_, ?_⟩
  · unfold PState.finish; rw [hp, ← hh1]; simp only [a1, bind, Except.bind]
  · obtain ⟨e, he⟩ := hf.ext
    have f : Frame t.pos h1 h2 := ⟨by omega, fun n hn => ⟨(a4 n).1, (a4 n).2.2, fun hP => ⟨(a4 n).2.1, a5 n hP⟩⟩⟩
    exact f.prefix (e := e ++ _) (by rw [hh1, he, List.append_assoc]) hf.ge
  · intro n hn
    simp only [Tree.firstpos, List.mem_append] at hn
    rcases hn with hn | hn
    · exact ⟨_, hleaf n hn⟩
    · split at hn
      · simp only [Tree.firstpos, List.mem_singleton] at hn
        exact ⟨true, hn ▸ hend⟩
      · cases hn
  · simp only [Tree.firstpos, List.mem_append]
    constructor
    · rintro ⟨n, hn | hn, e⟩
      · rw [hleaf n hn] at e; injection e with e; cases e
      · split at hn
        · assumption
        · cases hn
    · intro hn
      exact ⟨p.heap.length, .inr (by rw [if_pos hn]; simp [Tree.firstpos]), hend⟩

/-- `fixup_bol` does not change the answer. -/
theorem fixupBol (tr : Traits) (h0 : Heap) (p : PState) (root : Tree) (z : Prop) (hnb : tr.bolToken ≠ tr.nullToken)
    (hext : ∃ x, p.heap = h0 ++ x) (hlay : root.Lay tr.nullToken p.heap) (H : Starts p.heap root z) :
    ∃ h' root', p.fixupBol tr root = .ok ({ p with heap := h' }, root') ∧ (∃ x, h' = h0 ++ x) ∧ Starts h' root' z := by
  unfold PState.fixupBol
  split
  · exact ⟨_, _, rfl, hext, H⟩
  have l1 := fresh_leaf (nt := tr.nullToken) (h := p.heap) (h0 := p.heap) (e := []) (by simp) tr.bolToken .yes
  generalize e1 : p.heap.newLeaf tr.nullToken tr.bolToken .yes = r1 at l1
  obtain ⟨h1, lhs⟩ := r1
  have hb : h1.endState p.heap.length = .ok false ∧ lhs = .leaf p.heap.length false := by
    simp only [Heap.newLeaf, Prod.mk.injEq] at e1
    obtain ⟨rfl, rfl⟩ := e1
    exact ⟨by simp [Heap.endState], by simp [hnb]⟩
  obtain ⟨x1, hx1⟩ := l1.ext
  have l2 := fresh_leaf (nt := tr.nullToken) (h := h1) (h0 := p.heap) hx1 tr.nullToken .yes
  have hdis : ∀ n ∈ lhs.pos, n ∉ (h1.newLeaf tr.nullToken tr.nullToken .yes).2.pos := by
    intro n hn hm
    have : n < h1.length := l1.lt n hn
    simp [Heap.newLeaf, Tree.pos] at hm
    omega
  generalize e2 : h1.newLeaf tr.nullToken tr.nullToken .yes = r2 at l2 hdis
  obtain ⟨h2, rhs⟩ := r2
  have hn2 : rhs = .leaf h1.length true ∧ ∃ x, h2 = h1 ++ x := by
    simp only [Heap.newLeaf, Prod.mk.injEq] at e2
    obtain ⟨rfl, rfl⟩ := e2
    exact ⟨by simp, _, rfl⟩
  obtain ⟨hn2, x2, hx2⟩ := hn2
  have l1' : Fresh tr.nullToken p.heap h2 lhs := by rw [hx2]; exact l1.append _
  have l3 := fresh_sel l1' l2 hdis
  obtain ⟨x3, hx3⟩ := l3.ext
  have hlay2 : root.Lay tr.nullToken h2 := by rw [hx3]; exact hlay.append _
  obtain ⟨h3, a1, a2, a3, a4, a5⟩ := Heap.newSeq_lay tr.nullToken h2 (.sel lhs rhs) root l3.lay hlay2 l3.noFin (by
    intro n hn hm
    have := l3.ge n hn
    have := hlay.wf.lt n hm
    omega)
  have f : Frame (Tree.sel lhs rhs).pos h2 h3 :=
    ⟨by omega, fun n hn => ⟨(a4 n).1, (a4 n).2.2, fun hP => ⟨(a4 n).2.1, a5 n hP⟩⟩⟩
  obtain ⟨x4, hx4⟩ := f.prefix hx3 l3.ge
  refine ⟨h3, .seq (.sel lhs rhs) root, ?_, ?_, ?_⟩
  · simp only [e1, e2, a1, bind, Except.bind]
  · obtain ⟨x, hx⟩ := hext
    exact ⟨x ++ x4, by rw [hx4, hx, List.append_assoc]⟩
  have H3 : Starts h3 root z := by rw [hx4]; exact H.append
  have hb3 : h3.endState p.heap.length = .ok false := by
    obtain ⟨tk, htk⟩ := l3.lay.wf.tok l3.noFin p.heap.length (by simp [Tree.pos, hb.2])
    exact endState_tok ((a4 _).1.trans htk)
  have hfp : (Tree.seq (.sel lhs rhs) root).firstpos = p.heap.length :: root.firstpos := by
    rw [hb.2, hn2]
    simp [Tree.firstpos, Tree.nullable]
  unfold Starts
  rw [hfp]
  refine ⟨fun n hn => ?_, ?_⟩
  · rcases List.mem_cons.1 hn with rfl | hn
    · exact ⟨_, hb3⟩
    · exact H3.1 n hn
  · rw [← H3.2]
    constructor
    · rintro ⟨n, hn, e⟩
      rcases List.mem_cons.1 hn with rfl | hn
      · rw [hb3] at e; injection e with e; cases e
      · exact ⟨n, hn, e⟩
    · rintro ⟨n, hn, e⟩; exact ⟨n, by simp [hn], e⟩

/-- What is assumed of each rule. -/
structure Readable (tr : Traits) (W : Option Re → List Sym → Prop) (cost : Token → Nat) (xs : List DRule) : Prop where
  den : ∀ x ∈ xs, Denotes x.1.regex x.2
  act : ∀ x ∈ xs, ∀ r', x.2 = some r' → ∀ p, Built tr (fun s => [s]) (W (some r')) (r'.lookups cost) (!r'.noBol)
    (!r'.noEol) p (PState.act tr r' p)
  none : W none []

/-- `parse` on one rule. -/
theorem parse (tr : Traits) (W : Option Re → List Sym → Prop) (cost : Token → Nat) (p : PState)
    (regex : List Tok) (r : Option Re) (info : RuleInfo) (seenBol : Bool) (hd : Denotes regex r) (hp : p.trees = [])
    (hact : ∀ r', r = some r' → Built tr (fun s => [s]) (W (some r')) (r'.lookups cost) (!r'.noBol) (!r'.noEol) p
      (PState.act tr r' p))
    (hnone : W none []) (hcs : CsInv p.charsets) (hlen : p.charsets.length + rcost cost r + 2 ≤ tr.npos)
    (hnpos : 2 < tr.npos) :
    ∃ (p' : PState) (root : Tree), PState.parse tr p regex info seenBol = .ok (p', root) ∧
      p'.trees = [] ∧ (∃ x, p'.heap = p.heap ++ x) ∧ Grows tr (rcost cost r) p.charsets p'.charsets ∧
      Starts p'.heap root (W r []) := by
  have hnb : tr.bolToken ≠ tr.nullToken := by
    simp only [Traits.bolToken, Traits.nullToken]; omega
  -- the body
  have hbody : ∃ (p1 : PState) (g : Greedy) (h' : Heap) (root : Tree), PState.parse tr p regex info seenBol =
      wrapUp tr info g seenBol p1 ∧ Grows tr (rcost cost r) p.charsets p1.charsets ∧
      p1.finish info g = .ok ({ p1 with heap := h', trees := [] }, root) ∧
      (∃ x, h' = p.heap ++ x) ∧ root.Lay tr.nullToken h' ∧ Starts h' root (W r []) := by
    cases hd with
    | empty b e hb he =>
      refine ⟨p, if nonGreedy [b, e] then .no else .yes, p.heap ++ [⟨.fin info.id info.userId info.uniqueId info.nextDfa
        info.pushDfa info.popDfa (if nonGreedy [b, e] then .no else .yes), []⟩], .fin p.heap.length, ?_, .refl _ _, ?_,
        ⟨_, rfl⟩, ?_, ?_⟩
      · rw [parse_eq]
        have : PState.loop tr (16 * [b, e].length + 16) p [b] [e] = .ok p := by
          obtain ⟨bt, bx, bs⟩ := b
          obtain ⟨et, ex, es⟩ := e
          simp only at hb he
          subst hb he
          rfl
        rw [this]; rfl
      · unfold PState.finish; rw [hp]
      · refine ⟨⟨_, by simp [Heap.finOf]; rfl⟩, by simp [Tree.pos], ?_⟩
        intro n hn
        simp [Tree.pos] at hn
        subst hn
        simp [Heap.fol, Tree.follow]
      · refine ⟨fun n hn => ?_, ?_⟩
        · simp [Tree.firstpos] at hn; subst hn
          exact ⟨true, by simp [Heap.endState]⟩
        · refine ⟨fun _ => hnone, fun _ => ⟨p.heap.length, by simp [Tree.firstpos], by simp [Heap.endState]⟩⟩
    | re b e ts r hb he h =>
      obtain ⟨p1, t, a1, a2, a3, a4, a5, a6, a7⟩ := hact r rfl
      obtain ⟨c1, c2⟩ := a4.inv hcs (by simp only [rcost] at hlen; omega)
      have hm0 : IdsOk tr p1.charsets := c1.idsOk (by simp only [rcost] at hlen; omega) hnpos
      have hnull : t.nullable = true ↔ W (some r) [] := by
        rw [Tree.nullable_iff (Reads (tokReads tr p1.charsets) p1.heap)]
        have := (a7 _ hm0 fun _ h => h).trans (img_single _)
        exact iff_of_eq (congrFun this [])
      obtain ⟨h', b1, b2, b3, b4, b5⟩ := finish tr p.heap p1 t info (if nonGreedy (b :: ts ++ [e]) then .no else .yes)
        (by rw [a2, hp]) a3
      refine ⟨p1, _, h', _, ?_, a4, b1, b2, b3, ⟨b5.1, b5.2.trans hnull⟩⟩
      have hl : PState.loop tr (16 * (b :: ts ++ [e]).length + 16) p [b] (ts ++ [e]) = .ok p1 := by
        rw [PState.parseLoop_derives tr ts r h b e hb he p _ (by simp; omega), a1]
      cases ts with
      | nil =>
        show PState.parse tr p (b :: e :: []) info seenBol = _
        rw [parse_eq, show (b :: e :: [] : List Tok) = b :: [] ++ [e] from rfl]
        have hl' : PState.loop tr (16 * (b :: [] ++ [e]).length + 16) p [b] [e] = .ok p1 := hl
        rw [hl']; rfl
      | cons t1 ts =>
        show PState.parse tr p (b :: t1 :: (ts ++ [e])) info seenBol = _
        rw [parse_eq, show (b :: t1 :: (ts ++ [e])) = b :: (t1 :: ts) ++ [e] from rfl]
        have hl' : PState.loop tr (16 * (b :: (t1 :: ts) ++ [e]).length + 16) p [b]
          (t1 :: (ts ++ [e])) = .ok p1 := hl
        rw [hl']; rfl
  obtain ⟨p1, g, h', root, b1, b2, b3, b4, b5, b6⟩ := hbody
  cases seenBol with
  | false =>
    exact ⟨{ p1 with heap := h', trees := [] }, root, by rw [b1]; unfold wrapUp; rw [b3]; rfl, rfl, b4, b2, b6⟩
  | true =>
    obtain ⟨h2, root2, f1, f2, f3⟩ := fixupBol tr p.heap { p1 with heap := h', trees := [] } root _ hnb b4 b5 b6
    exact ⟨{ p1 with heap := h2, trees := [] }, root2, by rw [b1]; unfold wrapUp; rw [b3]; exact f1, rfl, f2, b2, f3⟩

theorem buildTreeRest (tr : Traits) (W : Option Re → List Sym → Prop) (cost : Token → Nat) (seenBol : Bool)
    (hnpos : 2 < tr.npos) (xs : List DRule) : ∀ (p : PState) (root : Tree) (uid : Nat) (z : Prop),
    Readable tr W cost xs → p.trees = [] → CsInv p.charsets →
    p.charsets.length + xcost cost xs + 2 ≤ tr.npos → Starts p.heap root z →
    ∃ (p' : PState) (root' : Tree),
      Lexertl.buildTreeRest tr seenBol (xs.map (·.1)) p root uid = .ok (p', root', uid + xs.length) ∧
      Starts p'.heap root' (z ∨ ∃ x ∈ xs, W x.2 []) := by
  induction xs with
  | nil =>
    intro p root uid z _ _ _ _ h
    exact ⟨p, root, rfl, by simpa using h⟩
  | cons x xs ih =>
    intro p root uid z hx hp hcs hlen h
    have hc : xcost cost (x :: xs) = rcost cost x.2 + xcost cost xs := by simp [xcost]
    rw [hc] at hlen
    obtain ⟨p1, r1, a1, a2, ⟨e1, a3⟩, a4, a5⟩ := parse tr W cost p x.1.regex x.2
      (x.1.info (uid + 1)) seenBol (hx.den x (by simp)) hp
      (fun r' h => hx.act x (by simp) r' h p) hx.none hcs (by omega) hnpos
    obtain ⟨c1, c2⟩ := a4.inv hcs (by omega)
    obtain ⟨p2, root2, b1, b2⟩ := ih p1 (.sel root r1) (uid + 1) (z ∨ W x.2 [])
      ⟨fun y hy => hx.den y (by simp [hy]), fun y hy => hx.act y (by simp [hy]), hx.none⟩ a2 c1 (by omega)
      (Starts.sel (by rw [a3]; exact h.append) a5)
    refine ⟨p2, root2, ?_, ?_⟩
    · rw [List.map_cons, Lexertl.buildTreeRest, a1]
      simp only [bind, Except.bind]
      rw [b1]
      simp only [List.length_cons]
      rw [show uid + 1 + xs.length = uid + (xs.length + 1) from by omega]
    · rw [or_assoc] at b2
      simpa using b2

/-- The test of `check_zero_len`. -/
theorem buildTree (tr : Traits) (W : Option Re → List Sym → Prop) (cost : Token → Nat) (seenBol : Bool)
    (hnpos : 2 < tr.npos) (xs : List DRule) (heap : Heap) (uid : Nat) (hne : xs ≠ []) (hx : Readable tr W cost xs)
    (hlen : xcost cost xs + 2 ≤ tr.npos) :
    ∃ (p' : PState) (root' : Tree) (z : Bool),
      Lexertl.buildTree tr seenBol (xs.map (·.1)) heap uid = .ok (p', root', uid + xs.length) ∧
      Lexertl.anyEnd p'.heap root'.firstpos = .ok z ∧ (z = true ↔ ∃ x ∈ xs, W x.2 []) := by
  cases xs with
  | nil => exact absurd rfl hne
  | cons x xs =>
    have hc : xcost cost (x :: xs) = rcost cost x.2 + xcost cost xs := by simp [xcost]
    rw [hc] at hlen
    obtain ⟨p1, r1, a1, a2, a3, a4, a5⟩ := parse tr W cost ⟨heap, [], tr.npos, tr.npos, []⟩ x.1.regex x.2
      (x.1.info (uid + 1)) seenBol (hx.den x (by simp)) rfl
      (fun r' h => hx.act x (by simp) r' h _) hx.none csInv_nil (by show 0 + rcost cost x.2 + 2 ≤ _; omega) hnpos
    obtain ⟨c1, c2⟩ := a4.inv csInv_nil (by show 0 + _ ≤ _; omega)
    simp only [List.length_nil, Nat.zero_add] at c2
    obtain ⟨p2, root2, b1, b2⟩ := buildTreeRest tr W cost seenBol hnpos xs p1 r1 (uid + 1) (W x.2 [])
      ⟨fun y hy => hx.den y (by simp [hy]), fun y hy => hx.act y (by simp [hy]), hx.none⟩ a2 c1 (by omega) a5
    obtain ⟨z, z1, z2⟩ := b2.anyEnd
    refine ⟨p2, root2, z, ?_, z1, by simpa using z2⟩
    rw [List.map_cons, Lexertl.buildTree, a1]
    simp only [bind, Except.bind]
    rw [b1]
    simp only [List.length_cons]
    rw [show uid + 1 + xs.length = uid + (xs.length + 1) from by omega]

/-- The regexes of `rs` are read as `xs`. -/
def ReadAs (rs : List Rule) (xs : List DRule) : Prop := xs.map (·.1) = rs ∧ ∀ x ∈ xs, Denotes x.1.regex x.2

theorem readAs_of {rs : List Rule} (h : ∀ r ∈ rs, ∃ e, Denotes r.regex e) : ∃ xs, ReadAs rs xs := by
  induction rs with
  | nil => exact ⟨[], rfl, by simp⟩
  | cons r rs ih =>
    obtain ⟨e, he⟩ := h r (by simp)
    obtain ⟨xs, h1, h2⟩ := ih fun r hr => h r (by simp [hr])
    exact ⟨(r, e) :: xs, by simp [h1], by simpa [he] using h2⟩

/-- `build` as far as `check_zero_len` is concerned. -/
theorem buildLoop (tr : Traits) (W : Option Re → List Sym → Prop) (cost : Token → Nat) (addr : Nat → Nat)
    (hnpos : 2 < tr.npos) (R : Rules) (rss : List (List Rule)) :
    ∀ (feats : List Nat) (B : BuildState), Term.HB B.heap → (∀ rs ∈ rss, ∀ r ∈ rs, FromTokeniser r.regex) →
    (∀ rs ∈ rss, ∀ xs, ReadAs rs xs → Readable tr W cost xs ∧ xcost cost xs + 2 ≤ tr.npos) →
    ((∃ B', Lexertl.buildLoop tr true addr R rss feats B = .ok B') → R.matchZeroLen = false →
      ∀ rs ∈ rss, ∀ r ∈ rs, ∀ e, Denotes r.regex e → ¬ W e []) ∧
    (Lexertl.buildLoop tr true addr R rss feats B = .error (.throw msgZero) →
      R.matchZeroLen = false ∧ ∃ rs ∈ rss, ∃ r ∈ rs, ∃ e, Denotes r.regex e ∧ W e []) := by
  induction rss with
  | nil =>
    intro feats B _ _ _
    exact ⟨fun _ _ => by simp, fun h => by simp [Lexertl.buildLoop] at h⟩
  | cons rs rss ih =>
    intro feats B H hreg hok
    unfold Lexertl.buildLoop
    split
    · refine ⟨(fun ⟨B', h⟩ => nomatch h), fun h => ?_⟩
      injection h with h
      injection h with h
      exact absurd h (by decide)
    rename_i hrs
    have ht := Term.buildTree tr (hasBit (feats.headD 0) 1) rs (uid := B.uniqueId) H fun r hr => by
      obtain ⟨b, e, ts, h1, _, h2, _⟩ := hreg rs (by simp) r hr
      exact ⟨e, by rw [h1]; exact List.getLast?_concat, h2⟩
    dsimp only
    cases hb : Lexertl.buildTree tr (hasBit (feats.headD 0) 1) rs B.heap B.uniqueId with
    | error e =>
      simp only [bind, Except.bind]
      refine ⟨(fun ⟨B', h⟩ => nomatch h), fun h => ?_⟩
      injection h with h
      exact absurd h (ht.2 e hb).2
    | ok out =>
      obtain ⟨xs, hx⟩ := readAs_of (buildTree_sound (hreg rs (by simp)) hb)
      obtain ⟨hx1, hx2⟩ := hok rs (by simp) xs hx
      have hne : xs ≠ [] := by
        rintro rfl
        have := hx.1
        simp only [List.map_nil] at this
        subst this
        simp at hrs
      obtain ⟨p', root', z, a1, a2, a3⟩ := buildTree tr W cost (hasBit (feats.headD 0) 1) hnpos xs B.heap B.uniqueId hne
        hx1 hx2
      rw [hx.1, hb] at a1
      injection a1 with a1
      subst a1
      have h1 := ht.1 _ hb
      simp only [bind, Except.bind]
      have hzero : Lexertl.checkZeroLen R.matchZeroLen p'.heap root' =
          if R.matchZeroLen = false ∧ z = true then .error (.throw msgZero) else .ok () := by
        unfold Lexertl.checkZeroLen
        rw [a2]
        cases R.matchZeroLen <;> cases z <;> rfl
      rw [hzero]
      by_cases hz : R.matchZeroLen = false ∧ z = true
      · rw [if_pos hz]
        refine ⟨?_, fun _ => ⟨hz.1, rs, by simp, ?_⟩⟩
        · rintro ⟨B', h⟩; cases h
        · obtain ⟨x, h2, h3⟩ := a3.1 hz.2
          exact ⟨x.1, hx.1 ▸ List.mem_map_of_mem h2, x.2, hx.2 x h2, h3⟩
      rw [if_neg hz]
      have hd := Term.buildDfa tr true R.allowSuppressed addr h1.1.heap p'.charsets p'.crId p'.nlId h1.2 B.used
      simp only
      cases e : Lexertl.buildDfa tr true R.allowSuppressed addr p'.heap p'.charsets p'.crId p'.nlId root' B.used with
      | error e' =>
        simp only
        refine ⟨?_, ?_⟩
        · rintro ⟨B', h⟩; cases h
        · intro h
          injection h with h
          exact absurd h (hd.2 e' e).2
      | ok out =>
        simp only
        split
        · refine ⟨?_, ?_⟩
          · rintro ⟨B', h⟩; cases h
          · intro h
            injection h with h
            injection h with h
            exact absurd h (by decide)
        · obtain ⟨k1, k2⟩ := ih feats.tail ⟨p'.heap, out.used, B.uniqueId + xs.length, B.dfas ++ [out]⟩ h1.1.heap
            (fun y hy => hreg y (List.mem_cons_of_mem _ hy)) fun y hy => hok y (List.mem_cons_of_mem _ hy)
          refine ⟨fun hB hm ys hys r hr d hd' hw => ?_, fun h => ?_⟩
          · rcases List.mem_cons.1 hys with rfl | hys
            · rw [← hx.1] at hr
              obtain ⟨x, h2, rfl⟩ := List.mem_map.1 hr
              exact hz ⟨hm, a3.2 ⟨x, h2, (denotes_unique (hx.2 x h2) hd') ▸ hw⟩⟩
            · exact k1 hB hm ys hys r hr d hd' hw
          · obtain ⟨g1, ys, g2, g3⟩ := k2 h
            exact ⟨g1, ys, List.mem_cons_of_mem _ g2, g3⟩

/-! ## The empty word in terms of the expressions -/

theorem pow_nil {L : List Sym → Prop} (k : Nat) : Spec.Pow L k [] ↔ k = 0 ∨ L [] := by
  induction k with
  | zero => simp [Spec.Pow]
  | succ k ih =>
    constructor
    · rintro ⟨u, v, h, hu, _⟩
      obtain ⟨rfl, rfl⟩ := List.append_eq_nil_iff.1 h.symm
      exact .inr hu
    · rintro (h | h)
      · cases h
      · exact ⟨[], [], rfl, h, ih.2 (.inr h)⟩

theorem mapChars_nil (g : Token → Token) (r : Re) : (r.mapChars g).Matches [] ↔ r.Matches [] := by
  induction r with
  | chars t => simp [Re.mapChars, Re.Matches]
  | bol | eol => rfl
  | seq l r ihl ihr =>
    simp only [Re.mapChars, Re.Matches]
    constructor
    · rintro ⟨u, v, h, h1, h2⟩
      obtain ⟨rfl, rfl⟩ := List.append_eq_nil_iff.1 h.symm
      exact ⟨[], [], rfl, ihl.1 h1, ihr.1 h2⟩
    · rintro ⟨u, v, h, h1, h2⟩
      obtain ⟨rfl, rfl⟩ := List.append_eq_nil_iff.1 h.symm
      exact ⟨[], [], rfl, ihl.2 h1, ihr.2 h2⟩
  | alt l r ihl ihr => simp only [Re.mapChars, Re.Matches, ihl, ihr]
  | opt r _ ih => simp only [Re.mapChars, Re.Matches, ih]
  | star r _ ih | plus r _ ih | rep r _ _ _ ih => simp only [Re.mapChars, Re.Matches, pow_nil, ih]

theorem words_nil (tr : Traits) (e : Option Re) : Wide.words tr e [] ↔ RMatches e [] := by
  have h1 : RMatches (e.map (Re.mapChars (Wide.accepts tr))) [] ↔ RMatches e [] := by
    cases e with
    | none => rfl
    | some r => exact mapChars_nil _ r
  rw [← h1]
  constructor
  · rintro ⟨u, h, e⟩
    cases u with
    | nil => exact h
    | cons s u =>
      simp only [List.flatMap_cons] at e
      exact absurd (List.append_eq_nil_iff.1 e.symm).1 (Wide.encode_ne tr s)
  · intro h; exact ⟨[], h, rfl⟩

theorem derives_lookups (tr : Traits) {l : Level} {ts : List Tok} {r : Re} (h : Derives l ts r) :
    r.lookups (slotsOf tr) = (ts.map (charsetsOf tr)).sum := by
  induction h with
  | charset e s => simp [Re.lookups, charsetsOf]
  | bol | eol => rfl
  | paren o c ts r ho hc _ ih => simp [charsetsOf, ho, hc, ih]
  | item ts r _ ih => exact ih
  | postfix_ ts r d q _ hd ih => cases hd <;> simp [Re.lookups, charsetsOf, ih]
  | seq1 ts r _ ih => exact ih
  | seq ts us l r _ _ ih1 ih2 => simp [Re.lookups, ih1, ih2]
  | alt1 ts r _ ih => exact ih
  | alt ts us o l r ho _ _ ih1 ih2 => simp [Re.lookups, charsetsOf, ho, ih1, ih2]

theorem denotes_cost (tr : Traits) {ts : List Tok} {e : Option Re} (h : Denotes ts e) :
    rcost (slotsOf tr) e = (ts.map (charsetsOf tr)).sum := by
  cases h with
  | empty b e hb he => simp [rcost, charsetsOf, hb, he]
  | re b e ts r hb he h => simp [rcost, charsetsOf, hb, he, derives_lookups tr h]

theorem _root_.Lexertl.Spec.ReadRules.readable {tr : Traits} {R : Rules} (h : ReadRules tr R) :
    ∀ rs ∈ R.states, ∀ xs, ReadAs rs xs →
      Readable tr (Wide.words tr) (slotsOf tr) xs ∧ xcost (slotsOf tr) xs + 2 ≤ tr.npos := by
  intro rs hrs xs ⟨hx, hd⟩
  refine ⟨⟨hd, ?_, (words_nil tr none).2 rfl⟩, ?_⟩
  · intro x hxx r' hr p
    have h2 := hd x hxx
    rw [hr] at h2
    refine Wide.act_any tr r' ?_ (denotes_counts h2) p
    have hs := h.sets rs hrs x.1 (hx ▸ List.mem_map_of_mem hxx)
    generalize x.1.regex = ts at h2 hs
    cases h2 with
    | re b e ts r hb he h3 => exact r_derives_allChars h3 fun t ht hc => hs t (by simp [ht]) hc
  · have := h.count rs hrs
    rw [← hx, List.map_map] at this
    rw [show xcost (slotsOf tr) xs = _ from congrArg List.sum (List.map_congr_left fun x hxx => denotes_cost tr (hd x hxx))]
    exact this

theorem readRules {E : TokEnv} {tr : Traits} (hmax : E.max + 1 = charsOf tr) {o : RulesObj} (h : ObjOk E tr o)
    (hc : ∀ rs ∈ o.states, (rs.map fun r => (r.regex.map (charsetsOf tr)).sum).sum + 2 ≤ tr.npos) :
    ReadRules tr o.rules := by
  refine ⟨obj_fromTokeniser h, ?_, hc⟩
  intro rs hrs r hr t ht hty
  obtain ⟨f, hf⟩ := obj_state h hrs
  obtain ⟨ts, e, hB⟩ := (hf.rules r hr).whole
  rw [e] at ht
  have ht' : t ∈ ts := by
    simp only [List.cons_append, List.mem_cons, List.mem_append, List.not_mem_nil, or_false] at ht
    rcases ht with rfl | ht | rfl
    · cases hty
    · exact ht
    · cases hty
  have g := hB.tok t ht'
  rcases g with g | g | ⟨⟨_, _, g⟩, _⟩
  · exact ⟨g.2.2.normal, g.2.2.ne, by have := g.2.2.within; rwa [show E.max = charsOf tr - 1 by omega] at this⟩
  · rw [hty] at g; simp at g
  · cases g <;> cases hty

/-- The exception of `check_zero_len`, for all rule sets. -/
theorem buildTemp {tr : Traits} (hnpos : 2 < tr.npos) {R : Rules} (h : ReadRules tr R) (addr : Nat → Nat) :
    ((∃ sm, Lexertl.buildTemp tr addr R = .ok sm) → R.matchZeroLen = false →
      ∀ rs ∈ R.states, ∀ r ∈ rs, ∀ e, Denotes r.regex e → ¬ RMatches e []) ∧
    (Lexertl.buildTemp tr addr R = .error (.throw msgZero) →
      R.matchZeroLen = false ∧ ∃ rs ∈ R.states, ∃ r ∈ rs, ∃ e, Denotes r.regex e ∧ RMatches e []) := by
  obtain ⟨h1, h2⟩ := buildLoop tr (Wide.words tr) (slotsOf tr) addr hnpos R R.states R.features ⟨[], [], 0, []⟩
    (by simp [Term.HB]) h.token h.readable
  unfold Lexertl.buildTemp
  cases e : Lexertl.buildLoop tr true addr R R.states R.features ⟨[], [], 0, []⟩ with
  | error e' =>
    simp only [bind, Except.bind]
    refine ⟨(fun ⟨B', h⟩ => nomatch h), fun h => ?_⟩
    injection h with h
    subst h
    obtain ⟨g1, rs, g2, r, g3, d, g4, g5⟩ := h2 e
    exact ⟨g1, rs, g2, r, g3, d, g4, (words_nil tr d).1 g5⟩
  | ok B =>
    refine ⟨fun _ hm rs hrs r hr d hd hn => h1 ⟨B, e⟩ hm rs hrs r hr d hd ((words_nil tr d).2 hn), fun h => ?_⟩
    simp only [bind, Except.bind] at h
    split at h
    · rename_i e' he
      injection h with h
      subst h
      unfold checkSuppressed at he
      split at he
      · cases he
      · split at he
        · cases he
        · injection he with he
          injection he with he
          exact absurd he (by decide)
    · cases h

/-- Without rules matching the empty text, in front of the end of a line or anywhere, no
empty token is returned. -/
theorem lex_nonempty {E : LexEnv} (hne : ∀ xs ∈ E.rules, NoEmpty (xs.map (·.2)))
    (hno : ∀ xs ∈ E.rules, ∀ x ∈ xs, ¬ RMatches x.2 [.eol] ∧ ¬ RMatches x.2 [.bol, .eol]) {r : Results} {p : Nat}
    {o : M Results} (h : E.LexAny r p o) {r' : Results} : r.first ≤ p → o = .ok r' → r'.id ≠ E.eoi →
    (r'.id ≠ E.npos ∨ E.flags.advance = true) → r'.first < r'.second := by
  have lt : ∀ {r : Results} {p : Nat} {x : SRule} {k next : Nat} {b : Bool},
      E.Picks r p x k next b → p < k := by
    intro r p x k next b h
    cases h with
    | text xs x k j h1 h2 h3 => exact h3
    | line xs x k j h1 h2 h3 h4 h5 h6 h7 =>
      refine Nat.lt_of_le_of_ne h3 fun hpk => ?_
      subst hpk
      obtain ⟨e, he, hm⟩ := h7.hit
      obtain ⟨y, hy, rfl⟩ := List.mem_map.1 (List.mem_of_getElem? he)
      obtain ⟨n1, n2⟩ := hno xs (List.mem_of_getElem? h1) y hy
      rw [show text E.inp p p = [] by simp [text]] at hm
      rcases hm with ⟨_, hm⟩ | ⟨_, hm⟩
      · exact n2 hm
      · exact n1 hm
    | empty xs x j h1 h2 h3 =>
      obtain ⟨e, he, hm⟩ := h3.hit
      exact absurd hm (hne xs (List.mem_of_getElem? h1) e (List.mem_of_getElem? he))
  have acc : ∀ {r r' : Results} {x : Rule} {k next : Nat} {b : Bool}, E.accept x r k next b = .ok r' →
      r'.first = r.first ∧ r'.second = k := by
    intro r r' x k next b h
    unfold LexEnv.accept at h
    split at h
    · split at h
      · cases h
      · injection h with h; subst h; exact ⟨rfl, rfl⟩
    · injection h with h; subst h; exact ⟨rfl, rfl⟩
  induction h with
  | eoi r => intro _ h hn; injection h with h; subst h; exact absurd rfl hn
  | none r p c hp h1 h2 =>
    intro _ h _ hn
    injection h with h
    subst h
    rcases hn with hn | hn
    · exact absurd rfl hn
    · simp only [hn, if_true]; omega
  | throw => intro _ h; cases h
  | skip r r'' p x k next b o hp h1 h2 h3 h4 ih =>
    intro _ h hn hn'
    exact ih (Nat.le_refl _) h hn hn'
  | again r r'' p x k next b o hp h1 h2 h3 h4 h5 ih =>
    intro hf h hn hn'
    have := lt h1
    exact ih (by rw [(acc h2).1]; omega) h hn hn'
  | token r r'' p x k next b hp h1 h2 h3 h4 =>
    intro hf h hn hn'
    injection h with h
    subst h
    have := lt h1
    simp only [acc h2]
    omega

/-! ## Lookup on tables whose start row accepts nothing -/

theorem bind_ok {α β : Type} {x : M α} {g : α → M β} {b : β} (h : (x >>= g) = .ok b) : ∃ a, x = .ok a ∧ g a = .ok b := by
  cases x with
  | error e => cases h
  | ok a => exact ⟨a, rfl, h⟩

section
variable {d : Dfa} {size n : Nat} {info : Nat → NodeData} {M At : Nat → List Sym → Prop}

theorem endStep_after {f : Flags} {s s' : LuState} {endTok curr e' p : Nat} (hp : p < curr)
    (h : s.endStep f d endTok curr = .ok (s', e')) (hs : s.endState = true → p < endTok) :
    s'.ptr = s.ptr ∧ (s'.endState = true → p < e') := by
  unfold LuState.endStep at h
  obtain ⟨e, _, h⟩ := bind_ok h
  split at h
  · obtain ⟨_, _, h⟩ := bind_ok h
    obtain ⟨_, _, h⟩ := bind_ok h
    obtain ⟨_, _, h⟩ := bind_ok h
    obtain ⟨_, _, h⟩ := bind_ok h
    cases h
    exact ⟨rfl, fun _ => hp⟩
  · cases h
    exact ⟨rfl, hs⟩

theorem stepBytes_at (G : GAuto d size n info M At) : ∀ (bs : List Nat) {ptr st ptr' st' : Nat} {u : List Sym},
    (∀ b ∈ bs, b < 256) → At ptr u → LuState.stepBytes d ptr bs st = .ok (ptr', st') → ∃ u', At ptr' u'
  | [], ptr, st, ptr', st', u, _, h, hs => by
    cases hs
    exact ⟨u, h⟩
  | b :: bs, ptr, st, ptr', st', u, hb, h, hs => by
    unfold LuState.stepBytes at hs
    obtain ⟨q, hq, hs⟩ := bind_ok hs
    split at hs
    · cases hs
      exact ⟨u, h⟩
    · rename_i hne
      rcases G.step ptr u b h (hb b (by simp)) with ⟨r', h1, _, h2⟩ | ⟨h1, _⟩
      · rw [hq] at h1
        cases h1
        exact stepBytes_at G bs (fun b hb' => hb b (by simp [hb'])) h2 hs
      · rw [hq] at h1
        cases h1
        exact absurd rfl hne

theorem nextChar_at (G : GAuto d size n info M At) {bytes : Nat} {s s' : LuState} {c st : Nat} {u : List Sym}
    (hc : bytes = 1 → c < 256) (h : At s.ptr u) (hn : s.nextChar bytes d c = .ok (s', st)) :
    (∃ u', At s'.ptr u') ∧ s'.endState = s.endState := by
  unfold LuState.nextChar at hn
  split at hn
  · rename_i hb
    obtain ⟨q, hq, hn⟩ := bind_ok hn
    split at hn
    · rename_i hne
      cases hn
      rcases G.step s.ptr u c h (hc hb) with ⟨r', h1, _, h2⟩ | ⟨h1, _⟩
      · rw [hq] at h1
        cases h1
        exact ⟨⟨_, h2⟩, rfl⟩
      · rw [hq] at h1
        cases h1
        exact absurd rfl hne
    · cases hn
      exact ⟨⟨u, h⟩, rfl⟩
  · obtain ⟨⟨ptr, q⟩, hq, hn⟩ := bind_ok hn
    cases hn
    refine ⟨stepBytes_at G _ ?_ h hq, rfl⟩
    intro b hb
    obtain ⟨i, _, rfl⟩ := List.mem_map.1 hb
    exact Nat.mod_lt _ (by decide)

theorem isEol_none (hz : ∀ r u, At r u → getCell d.rows r ixEol = .ok 0) {f : Flags} {s s' : LuState} {b : Bool}
    {c : Option Nat} {u : List Sym} (h : At s.ptr u) (he : s.isEol f d c = .ok (s', b)) :
    b = false ∧ s'.ptr = s.ptr ∧ s'.endState = s.endState := by
  unfold LuState.isEol at he
  split at he
  · obtain ⟨e, h1, he⟩ := bind_ok he
    rw [hz _ _ h] at h1
    cases h1
    simp only [ne_eq, not_true_eq_false, false_and, if_false] at he
    cases he
    exact ⟨rfl, rfl, rfl⟩
  · cases he
    exact ⟨rfl, rfl, rfl⟩

theorem scan_after (G : GAuto d size n info M At) (hz : ∀ r u, At r u → getCell d.rows r ixEol = .ok 0) {f : Flags}
    {bytes : Nat} {inp : List Nat} (hin : bytes = 1 → ∀ c ∈ inp, c < 256) {eoi p : Nat} :
    ∀ (fuel : Nat) {s s' : LuState} {curr endTok curr' endTok' : Nat} {u : List Sym}, At s.ptr u → p ≤ curr →
      (s.endState = true → p < endTok) → s.scan f bytes d inp eoi fuel curr endTok = .ok (s', curr', endTok') →
      (∃ u', At s'.ptr u') ∧ (s'.endState = true → p < endTok')
  | 0, s, s', curr, endTok, curr', endTok', u, _, _, _, h => by cases h
  | fuel + 1, s, s', curr, endTok, curr', endTok', u, ha, hp, hs, h => by
    unfold LuState.scan at h
    split at h
    · cases h
      exact ⟨⟨u, ha⟩, hs⟩
    · obtain ⟨c, hc, h⟩ := bind_ok h
      obtain ⟨⟨s1, b⟩, h1, h⟩ := bind_ok h
      obtain ⟨rfl, e1, e2⟩ := isEol_none hz ha h1
      simp only [Bool.false_eq_true, if_false] at h
      obtain ⟨⟨s2, st⟩, h2, h⟩ := bind_ok h
      have hcin : c ∈ inp := by
        unfold charAt at hc
        split at hc
        · split at hc
          · rename_i c' hc'
            cases hc
            exact List.mem_of_getElem? hc'
          · cases hc
        · cases hc
      obtain ⟨⟨u2, a2⟩, e3⟩ := nextChar_at G (fun hb => hin hb c hcin) (u := u) (by rw [e1]; exact ha) h2
      have e5 : ∀ b : Bool, (if f.bol = true then { s2 with bol := b } else s2).ptr = s2.ptr ∧
          (if f.bol = true then { s2 with bol := b } else s2).endState = s2.endState := by
        intro b; split <;> exact ⟨rfl, rfl⟩
      obtain ⟨e6, e7⟩ := e5 (c == 10)
      generalize (if f.bol = true then { s2 with bol := c == 10 } else s2) = s3 at h e6 e7
      have hs3 : s3.endState = true → p < endTok := by rw [e7, e3, e2]; exact hs
      split at h
      · obtain ⟨⟨s4, b⟩, h3, h⟩ := bind_ok h
        cases h
        obtain ⟨_, e8, e9⟩ := isEol_none hz (u := u2) (by rw [e6]; exact a2) h3
        exact ⟨⟨u2, by rw [e8, e6]; exact a2⟩, by rw [e9]; exact hs3⟩
      · obtain ⟨⟨s4, et⟩, h3, h⟩ := bind_ok h
        obtain ⟨e8, e9⟩ := endStep_after (p := p) (by omega) h3 hs3
        exact scan_after G hz hin fuel (u := u2) (by rw [e8, e6]; exact a2) (by omega) e9 h

end

/-- Every lexer state has a table whose start row accepts nothing and that has no `$`. -/
def StartsOk (sm : Internals) : Prop :=
  ∀ i d, sm.dfaAt i = .ok d → ∃ size n info M At, GAuto d size n info M At ∧
    (∀ r u, At r u → getCell d.rows r ixEol = .ok 0) ∧ getCell d.rows 1 ixEnd = .ok 0

theorem attempt_after {f : Flags} {npos bytes : Nat} {sm : Internals} {inp : List Nat} (hst : StartsOk sm)
    (hin : bytes = 1 → ∀ c ∈ inp, c < 256) {r : Results} {curr endTok endTok' : Nat} {s : LuState}
    (h : attempt f npos bytes sm inp r curr endTok = .ok (s, endTok')) : s.endState = true → curr < endTok' := by
  unfold attempt at h
  obtain ⟨d, hd, h⟩ := bind_ok h
  obtain ⟨size, n, info, M, At, G, hz, h0⟩ := hst _ d hd
  obtain ⟨s0, h1, h⟩ := bind_ok h
  have e0 : s0.ptr = 1 ∧ s0.endState = false := by
    unfold LuState.init at h1
    rw [h0] at h1
    obtain ⟨e, he, h1⟩ := bind_ok h1
    cases he
    obtain ⟨_, _, h1⟩ := bind_ok h1
    obtain ⟨_, _, h1⟩ := bind_ok h1
    obtain ⟨_, _, h1⟩ := bind_ok h1
    cases h1
    exact ⟨rfl, rfl⟩
  obtain ⟨s1, h2, h⟩ := bind_ok h
  have e1 : (∃ u, At s1.ptr u) ∧ s1.endState = false := by
    unfold LuState.bolStartState at h2
    split at h2
    · obtain ⟨b, hb, h2⟩ := bind_ok h2
      obtain ⟨b', g1, g2, _⟩ := G.bol
      rw [hb] at g1
      cases g1
      split at h2
      · rename_i hne
        cases h2
        exact ⟨⟨_, g2 hne⟩, e0.2⟩
      · cases h2
        exact ⟨⟨_, e0.1 ▸ G.ini⟩, e0.2⟩
    · cases h2
      exact ⟨⟨_, e0.1 ▸ G.ini⟩, e0.2⟩
  obtain ⟨⟨u, a1⟩, e1⟩ := e1
  obtain ⟨⟨s2, c2, t2⟩, h3, h⟩ := bind_ok h
  obtain ⟨⟨u2, a2⟩, h4⟩ := scan_after G hz hin _ a1 (Nat.le_refl _) (by rw [e1]; intro h; cases h) h3
  unfold LuState.checkEol at h
  dsimp only at h
  split at h
  · obtain ⟨e, he, h⟩ := bind_ok h
    rw [hz _ _ a2] at he
    cases he
    simp only [ne_eq, not_true_eq_false, if_false] at h
    cases h
    exact h4
  · cases h
    exact h4

theorem nextLoop_nonempty {f : Flags} {npos bytes : Nat} {sm : Internals} {inp : List Nat} (hst : StartsOk sm)
    (hin : bytes = 1 → ∀ c ∈ inp, c < 256) {r' : Results} (heoi : r'.id ≠ sm.eoi) (hnone : r'.id ≠ npos ∨ f.advance = true) :
    ∀ (fuel : Nat) {r : Results} {curr endTok : Nat}, r.first ≤ curr →
      nextLoop f npos bytes sm inp fuel r curr endTok = .ok r' → r'.first < r'.second
  | 0, r, curr, endTok, _, h => by cases h
  | fuel + 1, r, curr, endTok, hf, h => by
    unfold nextLoop at h
    split at h
    · cases h
      exact absurd rfl heoi
    · obtain ⟨⟨s, et⟩, h1, h⟩ := bind_ok h
      dsimp only at h
      split at h
      · rename_i hs
        have hlt := attempt_after hst hin h1 hs
        obtain ⟨⟨s1, stack⟩, h2, h⟩ := bind_ok h
        dsimp only at h
        split at h
        · exact nextLoop_nonempty hst hin heoi hnone fuel (Nat.le_refl _) h
        · split at h
          · exact nextLoop_nonempty hst hin heoi hnone fuel (by show r.first ≤ et; omega) h
          · cases h
            show r.first < et
            omega
      · obtain ⟨c, _, h⟩ := bind_ok h
        cases h
        rcases hnone with hn | hn
        · exact absurd rfl hn
        · simp only [hn, if_true]
          omega

/-- Machines built from rules without anchors. -/
theorem starts {tr : Traits} (hnpos : 263 ≤ tr.npos) {R : Rules} (h : ReadRules tr R) (hz : R.matchZeroLen = false)
    (hanc : ∀ rs ∈ R.states, ∀ r ∈ rs, ∀ t ∈ r.regex, t.type ≠ .bol ∧ t.type ≠ .eol) {addr : Nat → Nat} {sm : Internals}
    (hb : Lexertl.buildTemp tr addr R = .ok sm) (hden : ∀ rs ∈ R.states, ∀ r ∈ rs, ∃ e, Denotes r.regex e) :
    StartsOk sm ∧ sm.eoi = R.eoi := by
  obtain ⟨xss, hx, hd⟩ := r_list_choose2 R.states hden
  have hmem : ∀ xs ∈ xss, xs.map (·.1) ∈ R.states := fun xs hxs => hx ▸ List.mem_map_of_mem hxs
  have hn : ∀ xs ∈ xss, ∀ x ∈ xs, NoBol x.2 ∧ NoEol x.2 := by
    intro xs hxs x hxx
    have h2 := hd xs hxs x hxx
    have h3 := hanc _ (hmem xs hxs) x.1 (List.mem_map_of_mem hxx)
    generalize x.1.regex = ts at h2 h3
    generalize x.2 = e at h2
    cases h2 with
    | empty => exact ⟨trivial, trivial⟩
    | re b e ts r hb he h4 =>
      exact ⟨r_derives_noBol h4 fun t ht => (h3 t (by simp [ht])).1, r_derives_noEol h4 fun t ht => (h3 t (by simp [ht])).2⟩
  have hok : ∀ xs ∈ xss, StateOk tr (Wide.words tr) (slotsOf tr) xs := by
    intro xs hxs
    obtain ⟨h1, h2⟩ := h.readable _ (hmem xs hxs) xs ⟨rfl, hd xs hxs⟩
    refine ⟨⟨h1.den, h1.act, Wide.words_none tr, ?_⟩, h2, fun b => .inl fun x hxx => (Line.noEol_iff _).2 (hn xs hxs x hxx).2⟩
    intro x hxx w hw
    refine Wide.words_tail ?_ hw
    have := (hn xs hxs x hxx).1
    cases hx2 : x.2 with
    | none => trivial
    | some r => rw [hx2] at this; exact noBol_head this
  rcases buildTemp_spec tr _ _ addr hnpos R xss hx.symm hok with ⟨sm', b1, b2, _, b4, _, b6, _, b8⟩ | ⟨msg, b1, _⟩
  · rw [b1] at hb
    cases hb
    refine ⟨?_, b2⟩
    intro i d hdi
    have hi : i < xss.length := by
      rw [← b4]
      unfold Internals.dfaAt at hdi
      split at hdi
      · rename_i h1 h2
        exact (List.getElem?_eq_some_iff.1 h2).1
      · cases hdi
    obtain ⟨d', size, At, g1, g2, g3, g4, g5, _⟩ := b8 i xss[i] (List.getElem?_eq_getElem hi)
    rw [hdi] at g1
    cases g1
    refine ⟨_, _, _, _, At, g4, g5 fun x hxx => (Line.noEol_iff _).2 (hn _ (List.getElem_mem hi) x hxx).2, ?_⟩
    obtain ⟨e, e1, e2⟩ := g4.fin 1 [] g4.ini
    rcases e2 with ⟨rfl, _⟩ | ⟨j, hj, hm, _⟩
    · have := e1 ixEnd (by decide)
      rw [this, cells_none]
    · rcases b6 i xss[i] (List.getElem?_eq_getElem hi) with h1 | h1
      · rw [hz] at h1; cases h1
      · exact absurd ⟨j, hm⟩ h1
  · rw [b1] at hb; cases hb

end Lexertl.Null
