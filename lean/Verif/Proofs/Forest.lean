import Verif.Proofs.EncTree
import Verif.Proofs.EagerTree
import Verif.Proofs.Adds
import Verif.Model.Generator

/-
`build_tree`: the syntax trees of all rules of one lexer state.
-/
namespace Lexertl
open Spec

/-- A rule together with the expression its tokens denote. -/
abbrev DRule := Rule × Option Re

/-- End node made for a rule. -/
def endNode (x : DRule) (uid : Nat) : NodeData :=
  .fin x.1.id x.1.userId uid x.1.nextDfa x.1.pushDfa x.1.popDfa (if rGreedy x.2 then .yes else .no)

/-- `ts` are the trees and end nodes of the rules `xs`, numbered from `uid + 1`. -/
def Forest (tr : Traits) (W : Option Re → List Sym → Prop) (seenBol : Bool) (m : CharsetMap) (h : Heap) :
    Nat → List DRule → List (Tree × Nat) → Prop
  | _, [], [] => True
  | uid, x :: xs, t :: ts =>
    RuleTree tr m h (seenBol || !rNoBol x.2) (!rNoEol x.2) t.1 t.2 (endNode x (uid + 1))
      (FixBol seenBol (W x.2)) ∧ Forest tr W seenBol m h (uid + 1) xs ts
  | _, _, _ => False

theorem Forest.ext {tr : Traits} {W : Option Re → List Sym → Prop} {seenBol : Bool} {m : CharsetMap} {h h' : Heap}
    (he : ∃ x, h' = h ++ x) {xs : List DRule} : ∀ {uid : Nat} {ts : List (Tree × Nat)},
    Forest tr W seenBol m h uid xs ts → Forest tr W seenBol m h' uid xs ts := by
  induction xs with
  | nil => intro uid ts H; cases ts <;> exact H
  | cons x xs ih =>
    intro uid ts H
    cases ts with
    | nil => exact H
    | cons t ts => exact ⟨H.1.ext he, ih H.2⟩

/-- The trees of rules for comments and the like have the shape of the expression; those
of eager rules have `hard` positions. -/
def Shapes (tr : Traits) (seenBol : Bool) (m : CharsetMap) (h : Heap) (xs : List DRule) (ts : List (Tree × Nat)) : Prop :=
  tr.compressed = false → seenBol = false → ∀ (j : Nat) (x : DRule) (t : Tree × Nat), xs[j]? = some x →
    ts[j]? = some t → ∀ r, x.2 = some r → (Enclosed r → Enc.EncTree m h r t) ∧ (r.eager = true → Eager.EagerTree h t)

theorem Shapes.cons {tr : Traits} {seenBol : Bool} {m : CharsetMap} {h : Heap} {xs : List DRule}
    {ts : List (Tree × Nat)} {x : DRule} {t : Tree × Nat} (H : Shapes tr seenBol m h xs ts)
    (h0 : tr.compressed = false → seenBol = false → ∀ r, x.2 = some r →
      (Enclosed r → Enc.EncTree m h r t) ∧ (r.eager = true → Eager.EagerTree h t)) :
    Shapes tr seenBol m h (x :: xs) (t :: ts) := by
  intro hc hb j y s hy hs
  cases j with
  | zero =>
    simp only [List.getElem?_cons_zero, Option.some.injEq] at hy hs
    subst hy hs
    exact h0 hc hb
  | succ j =>
    rw [List.getElem?_cons_succ] at hy hs
    exact H hc hb j y s hy hs

/-- Bound on the number of charset lookups of a list of rules. -/
def xcost (cost : Token → Nat) (xs : List DRule) : Nat := (xs.map fun x => rcost cost x.2).sum

/-- What is assumed of each rule. -/
structure RulesOk (tr : Traits) (W : Option Re → List Sym → Prop) (cost : Token → Nat) (xs : List DRule) : Prop where
  den : ∀ x ∈ xs, Denotes x.1.regex x.2
  act : ∀ x ∈ xs, ∀ r', x.2 = some r' → ∀ p, Built tr (fun s => [s]) (W (some r')) (r'.lookups cost) (!r'.noBol)
    (!r'.noEol) p (PState.act tr r' p)
  none : W none = fun w => w = []
  tail : ∀ x ∈ xs, ∀ w, W x.2 w → Sym.bol ∉ w.tail

theorem buildTreeRest_spec (tr : Traits) (W : Option Re → List Sym → Prop) (cost : Token → Nat) (seenBol : Bool)
    (hnpos : 2 < tr.npos) (xs : List DRule) : ∀ (p : PState) (root : Tree) (uid : Nat),
    RulesOk tr W cost xs → p.trees = [] → CsInv p.charsets →
    p.charsets.length + xcost cost xs + 2 ≤ tr.npos →
    ∃ (p' : PState) (root' : Tree) (ts : List (Tree × Nat)),
      buildTreeRest tr seenBol (xs.map (·.1)) p root uid = .ok (p', root', uid + xs.length) ∧
      (∃ x, p'.heap = p.heap ++ x) ∧ Grows tr (xcost cost xs) p.charsets p'.charsets ∧
      ((∀ x ∈ xs, rNoEol x.2 = true) → p'.crId = p.crId ∧ p'.nlId = p.nlId) ∧
      root'.firstpos = root.firstpos ++ ts.flatMap (·.1.firstpos) ∧
      ((∀ x ∈ xs, EolLast tr x.2) → (CrIn p → CrIn p') ∧ ((∃ x ∈ xs, rNoEol x.2 ≠ true) → CrIn p') ∧
        ∀ t ∈ ts, OneEol tr p'.heap t.1) ∧
      (∀ t ∈ ts, ∀ n ∈ t.1.pos, p.heap.length ≤ n) ∧
      ts.Pairwise (fun s t => ∀ a ∈ s.1.pos, ∀ b ∈ t.1.pos, a < b) ∧
      Shapes tr seenBol p'.charsets p'.heap xs ts ∧
      (∀ x ∈ xs, ∀ t, Adds tr t x.2 → ∃ id, (t, id) ∈ p'.charsets) ∧
      ∀ m, IdsOk tr m → (∀ c ∈ p'.charsets, c ∈ m) → (∀ c ∈ m, GoodTok c.1) →
        Forest tr W seenBol m p'.heap uid xs ts := by
  induction xs with
  | nil =>
    intro p root uid _ _ _ _
    exact ⟨p, root, [], rfl, ⟨[], by simp⟩, .refl _ _, fun _ => ⟨rfl, rfl⟩, by simp,
      fun _ => ⟨fun h => h, by simp, by simp⟩, by simp, by simp,
      fun _ _ j x t h => by simp at h, by simp, fun _ _ _ _ => trivial⟩
  | cons x xs ih =>
    intro p root uid hx hp hcs hlen
    have hc : xcost cost (x :: xs) = rcost cost x.2 + xcost cost xs := by simp [xcost]
    rw [hc] at hlen
    obtain ⟨p1, r1, f, a1, a2, a3, a4, a5, a6, a7⟩ := parse_rule tr W cost p x.1.regex x.2
      (x.1.info (uid + 1)) seenBol (hx.den x (by simp)) hp
      (fun r' h => hx.act x (by simp) r' h p) hx.none (hx.tail x (by simp)) hcs (by omega) hnpos
    obtain ⟨c1, c2⟩ := a4.inv hcs (by omega)
    obtain ⟨p2, root2, ts, b1, b2, b3, b4, b5, b9, b6, b7, b10, b11, b8⟩ := ih p1 (.sel root r1) (uid + 1)
      ⟨fun y hy => hx.den y (by simp [hy]), fun y hy => hx.act y (by simp [hy]), hx.none,
        fun y hy => hx.tail y (by simp [hy])⟩ a2 c1 (by omega)
    have hle : p.heap.length ≤ p1.heap.length := by obtain ⟨x, hx⟩ := a3; rw [hx]; simp
    refine ⟨p2, root2, (r1, f) :: ts, ?_, ?_, ?_, ?_, ?_, ?_, ?_, ?_, ?_, ?_, ?_⟩
    · rw [List.map_cons, buildTreeRest, a1]
      simp only [bind, Except.bind]
      rw [b1]
      simp only [List.length_cons]
      rw [show uid + 1 + xs.length = uid + (xs.length + 1) from by omega]
    · obtain ⟨x1, h1⟩ := a3
      obtain ⟨x2, h2⟩ := b2
      exact ⟨x1 ++ x2, by rw [h2, h1, List.append_assoc]⟩
    · rw [hc]; exact a4.trans b3
    · intro h
      have h1 := a5 (h x (by simp))
      have h2 := b4 fun y hy => h y (by simp [hy])
      exact ⟨h2.1.trans h1.1, h2.2.trans h1.2⟩
    · rw [b5]
      simp only [Tree.firstpos, List.flatMap_cons, List.append_assoc]
    · intro hE
      have hT := a7 p1.charsets (c1.idsOk (by omega) hnpos) (fun _ h => h) c1.good
      obtain ⟨k1, k2, k3⟩ := parse_oneEol (W := W) (cost := cost) hnpos (hx.den x (by simp)) hp (hE x (by simp)) a1
        (c1.idsOk (by omega) hnpos) a4 a5 hT
      obtain ⟨k4, k5, k6⟩ := b9 (fun y hy => hE y (by simp [hy]))
      refine ⟨fun h => k4 (k1 h), ?_, fun t ht => ?_⟩
      · rintro ⟨y, hy, he⟩
        rcases List.mem_cons.1 hy with rfl | hy
        · exact k4 (k2 he)
        · exact k5 ⟨y, hy, he⟩
      rcases List.mem_cons.1 ht with rfl | ht
      · exact k3.ext b2 hT.lay.wf.lt
      · exact k6 t ht
    · intro t ht
      rcases List.mem_cons.1 ht with rfl | ht
      · exact a6
      · intro n hn; have := b6 t ht n hn; omega
    · rw [List.pairwise_cons]
      refine ⟨fun t ht a ha b hb => ?_, b7⟩
      have h1 := b6 t ht b hb
      have h2 := (a7 p1.charsets (c1.idsOk (by omega) hnpos) (fun _ h => h) c1.good).lay.wf.lt a ha
      omega
    · refine b10.cons fun hc hb r hr => ?_
      have hids := c1.idsOk (tr := tr) (by omega) hnpos
      have hT := a7 p1.charsets hids (fun _ h => h) c1.good
      subst hb
      refine ⟨fun he => Enc.EncTree.ext (Enc.parse_shape hc (hr ▸ hx.den x (by simp)) hp he a1 (fun c h h0 => ?_) hT.last)
        b3.sub b2 hT.lay.wf.lt, fun he =>
        (Eager.parse_eager hc (hr ▸ hx.den x (by simp)) hp he a1 hT.last).ext b2⟩
      have := hids.small c h
      rw [h0] at this
      simp only [Traits.nullToken] at this; omega
    · intro y hy t ha
      rcases List.mem_cons.1 hy with rfl | hy
      · obtain ⟨id, hid⟩ := parse_adds (hx.den y (by simp)) ha (fun r' h => by
          obtain ⟨p1, _, h1, _⟩ := hx.act y (by simp) r' h p
          exact ⟨p1, h1⟩) a1
        exact ⟨id, b3.sub _ hid⟩
      · exact b11 y hy t ha
    · intro m hm hs hg
      refine ⟨?_, b8 m hm hs hg⟩
      have := a7 m hm (fun c hc => hs c (b3.sub c hc)) hg
      exact this.ext b2

theorem buildTree_spec (tr : Traits) (W : Option Re → List Sym → Prop) (cost : Token → Nat) (seenBol : Bool)
    (hnpos : 2 < tr.npos) (xs : List DRule) (heap : Heap) (uid : Nat) (hne : xs ≠ [])
    (hx : RulesOk tr W cost xs) (hlen : xcost cost xs + 2 ≤ tr.npos) :
    ∃ (p' : PState) (root' : Tree) (ts : List (Tree × Nat)),
      buildTree tr seenBol (xs.map (·.1)) heap uid = .ok (p', root', uid + xs.length) ∧
      (∃ x, p'.heap = heap ++ x) ∧ Grows tr (xcost cost xs) [] p'.charsets ∧
      ((∀ x ∈ xs, rNoEol x.2 = true) → p'.crId = tr.npos ∧ p'.nlId = tr.npos) ∧
      root'.firstpos = ts.flatMap (·.1.firstpos) ∧
      ((∀ x ∈ xs, EolLast tr x.2) → ((∃ x ∈ xs, rNoEol x.2 ≠ true) → CrIn p') ∧
        ∀ t ∈ ts, OneEol tr p'.heap t.1) ∧
      (∀ t ∈ ts, ∀ n ∈ t.1.pos, heap.length ≤ n) ∧
      ts.Pairwise (fun s t => ∀ a ∈ s.1.pos, ∀ b ∈ t.1.pos, a < b) ∧
      Shapes tr seenBol p'.charsets p'.heap xs ts ∧
      (∀ x ∈ xs, ∀ t, Adds tr t x.2 → ∃ id, (t, id) ∈ p'.charsets) ∧
      ∀ m, IdsOk tr m → (∀ c ∈ p'.charsets, c ∈ m) → (∀ c ∈ m, GoodTok c.1) →
        Forest tr W seenBol m p'.heap uid xs ts := by
  cases xs with
  | nil => exact absurd rfl hne
  | cons x xs =>
    have hc : xcost cost (x :: xs) = rcost cost x.2 + xcost cost xs := by simp [xcost]
    rw [hc] at hlen
    obtain ⟨p1, r1, f, a1, a2, a3, a4, a5, a6, a7⟩ := parse_rule tr W cost
      ⟨heap, [], tr.npos, tr.npos, []⟩ x.1.regex x.2
      (x.1.info (uid + 1)) seenBol (hx.den x (by simp)) rfl
      (fun r' h => hx.act x (by simp) r' h _) hx.none (hx.tail x (by simp)) csInv_nil
      (by show 0 + rcost cost x.2 + 2 ≤ _; omega) hnpos
    obtain ⟨c1, c2⟩ := a4.inv csInv_nil (by show 0 + _ ≤ _; omega)
    simp only [List.length_nil, Nat.zero_add] at c2
    obtain ⟨p2, root2, ts, b1, b2, b3, b4, b5, b9, b6, b7, b10, b11, b8⟩ := buildTreeRest_spec tr W cost seenBol
      hnpos xs p1 r1 (uid + 1)
      ⟨fun y hy => hx.den y (by simp [hy]), fun y hy => hx.act y (by simp [hy]), hx.none,
        fun y hy => hx.tail y (by simp [hy])⟩ a2 c1 (by omega)
    have hle : heap.length ≤ p1.heap.length := by obtain ⟨x, hx⟩ := a3; rw [hx]; simp
    refine ⟨p2, root2, (r1, f) :: ts, ?_, ?_, ?_, ?_, ?_, ?_, ?_, ?_, ?_, ?_, ?_⟩
    · rw [List.map_cons, buildTree, a1]
      simp only [bind, Except.bind]
      rw [b1]
      simp only [List.length_cons]
      rw [show uid + 1 + xs.length = uid + (xs.length + 1) from by omega]
    · obtain ⟨x1, h1⟩ := a3
      obtain ⟨x2, h2⟩ := b2
      exact ⟨x1 ++ x2, by rw [h2, h1, List.append_assoc]⟩
    · rw [hc]; exact a4.trans b3
    · intro h
      have h1 := a5 (h x (by simp))
      have h2 := b4 fun y hy => h y (by simp [hy])
      exact ⟨h2.1.trans h1.1, h2.2.trans h1.2⟩
    · rw [b5]
      simp only [List.flatMap_cons]
    · intro hE
      have hT := a7 p1.charsets (c1.idsOk (by omega) hnpos) (fun _ h => h) c1.good
      obtain ⟨k1, k2, k3⟩ := parse_oneEol (W := W) (cost := cost) hnpos (hx.den x (by simp)) rfl (hE x (by simp)) a1
        (c1.idsOk (by omega) hnpos) a4 a5 hT
      obtain ⟨k4, k5, k6⟩ := b9 (fun y hy => hE y (by simp [hy]))
      refine ⟨?_, fun t ht => ?_⟩
      · rintro ⟨y, hy, he⟩
        rcases List.mem_cons.1 hy with rfl | hy
        · exact k4 (k2 he)
        · exact k5 ⟨y, hy, he⟩
      rcases List.mem_cons.1 ht with rfl | ht
      · exact k3.ext b2 hT.lay.wf.lt
      · exact k6 t ht
    · intro t ht
      rcases List.mem_cons.1 ht with rfl | ht
      · exact a6
      · intro n hn; have := b6 t ht n hn; omega
    · rw [List.pairwise_cons]
      refine ⟨fun t ht a ha b hb => ?_, b7⟩
      have h1 := b6 t ht b hb
      have h2 := (a7 p1.charsets (c1.idsOk (by omega) hnpos) (fun _ h => h) c1.good).lay.wf.lt a ha
      omega
    · refine b10.cons fun hc hb r hr => ?_
      have hids := c1.idsOk (tr := tr) (by omega) hnpos
      have hT := a7 p1.charsets hids (fun _ h => h) c1.good
      subst hb
      refine ⟨fun he => Enc.EncTree.ext (Enc.parse_shape hc (hr ▸ hx.den x (by simp)) rfl he a1 (fun c h h0 => ?_) hT.last)
        b3.sub b2 hT.lay.wf.lt, fun he =>
        (Eager.parse_eager hc (hr ▸ hx.den x (by simp)) rfl he a1 hT.last).ext b2⟩
      have := hids.small c h
      rw [h0] at this
      simp only [Traits.nullToken] at this; omega
    · intro y hy t ha
      rcases List.mem_cons.1 hy with rfl | hy
      · obtain ⟨id, hid⟩ := parse_adds (hx.den y (by simp)) ha (fun r' h => by
          obtain ⟨p1, _, h1, _⟩ := hx.act y (by simp) r' h _
          exact ⟨p1, h1⟩) a1
        exact ⟨id, b3.sub _ hid⟩
      · exact b11 y hy t ha
    · intro m hm hs hg
      refine ⟨?_, b8 m hm hs hg⟩
      have := a7 m hm (fun c hc => hs c (b3.sub c hc)) hg
      exact this.ext b2

end Lexertl
