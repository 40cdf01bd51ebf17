import Verif.Proofs.Heap

/-
`node::copy`: the iterative copy of a subtree.
-/
namespace Lexertl

namespace Tree

/-- Same tree up to the numbers of the nodes: same operators, same tokens, same
greediness. -/
def SameShape (h h' : Heap) : Tree → Tree → Prop
  | leaf n a, leaf m b => a = b ∧ h.tokOf n = h'.tokOf m ∧ h.greedyOf n = h'.greedyOf m
  | seq l r, seq l' r' => SameShape h h' l l' ∧ SameShape h h' r r'
  | sel l r, sel l' r' => SameShape h h' l l' ∧ SameShape h h' r r'
  | iter t g, iter t' g' => g = g' ∧ SameShape h h' t t'
  | _, _ => False

/-- The first positions of an iteration have its greediness or are `hard`. -/
def GreedyOk (h : Heap) : Tree → Prop
  | leaf _ _ => True
  | fin _ => True
  | seq l r => l.GreedyOk h ∧ r.GreedyOk h
  | sel l r => l.GreedyOk h ∧ r.GreedyOk h
  | iter t g => (∀ n ∈ t.firstpos, h.greedyOf n = some .hard ∨ h.greedyOf n = some g) ∧
      g ≠ .yes ∧ t.GreedyOk h

theorem SameShape.congr_right {h h1 h2 : Heap} {t t' : Tree} (H : SameShape h h1 t t')
    (e : ∀ n ∈ t'.pos, h2.tokOf n = h1.tokOf n ∧ h2.greedyOf n = h1.greedyOf n) :
    SameShape h h2 t t' := by
  induction t generalizing t' with
  | leaf n a =>
    cases t' <;> try exact H.elim
    rename_i m b
    obtain ⟨h1, h2, h3⟩ := H
    have := e m (by simp [pos])
    exact ⟨h1, by rw [h2, this.1], by rw [h3, this.2]⟩
  | fin n => cases t' <;> exact H.elim
  | seq l r ihl ihr =>
    cases t' <;> try exact H.elim
    exact ⟨ihl H.1 fun n hn => e n (by simp [pos, hn]), ihr H.2 fun n hn => e n (by simp [pos, hn])⟩
  | sel l r ihl ihr =>
    cases t' <;> try exact H.elim
    exact ⟨ihl H.1 fun n hn => e n (by simp [pos, hn]), ihr H.2 fun n hn => e n (by simp [pos, hn])⟩
  | iter t g ih =>
    cases t' <;> try exact H.elim
    exact ⟨H.1, ih H.2 e⟩

theorem SameShape.congr_left {h h1 h2 : Heap} {t t' : Tree} (H : SameShape h1 h t t')
    (e : ∀ n ∈ t.pos, h2.tokOf n = h1.tokOf n ∧ h2.greedyOf n = h1.greedyOf n) :
    SameShape h2 h t t' := by
  induction t generalizing t' with
  | leaf n a =>
    cases t' <;> try exact H.elim
    rename_i m b
    obtain ⟨h1, h2, h3⟩ := H
    have := e n (by simp [pos])
    exact ⟨h1, by rw [← h2, this.1], by rw [← h3, this.2]⟩
  | fin n => cases t' <;> exact H.elim
  | seq l r ihl ihr =>
    cases t' <;> try exact H.elim
    exact ⟨ihl H.1 fun n hn => e n (by simp [pos, hn]), ihr H.2 fun n hn => e n (by simp [pos, hn])⟩
  | sel l r ihl ihr =>
    cases t' <;> try exact H.elim
    exact ⟨ihl H.1 fun n hn => e n (by simp [pos, hn]), ihr H.2 fun n hn => e n (by simp [pos, hn])⟩
  | iter t g ih =>
    cases t' <;> try exact H.elim
    exact ⟨H.1, ih H.2 e⟩

theorem SameShape.nullable {h h' : Heap} {t t' : Tree} (H : SameShape h h' t t') :
    t.nullable = t'.nullable := by
  induction t generalizing t' with
  | leaf n a => cases t' <;> try exact H.elim
                exact H.1
  | fin n => cases t' <;> exact H.elim
  | seq l r ihl ihr =>
    cases t' <;> try exact H.elim
    simp only [Tree.nullable, ihl H.1, ihr H.2]
  | sel l r ihl ihr =>
    cases t' <;> try exact H.elim
    simp only [Tree.nullable, ihl H.1, ihr H.2]
  | iter t g ih => cases t' <;> try exact H.elim
                   rfl

theorem SameShape.size {h h' : Heap} {t t' : Tree} (H : SameShape h h' t t') :
    t.size = t'.size := by
  induction t generalizing t' with
  | leaf n a => cases t' <;> try exact H.elim
                rfl
  | fin n => cases t' <;> exact H.elim
  | seq l r ihl ihr =>
    cases t' <;> try exact H.elim
    simp only [Tree.size, ihl H.1, ihr H.2]
  | sel l r ihl ihr =>
    cases t' <;> try exact H.elim
    simp only [Tree.size, ihl H.1, ihr H.2]
  | iter t g ih => cases t' <;> try exact H.elim
                   simp only [Tree.size, ih H.2]

/-- A statement about the greediness of all first positions carries over. -/
theorem SameShape.first {h h' : Heap} {t t' : Tree} (H : SameShape h h' t t')
    (Q : Option Greedy → Prop) (hq : ∀ n ∈ t.firstpos, Q (h.greedyOf n)) :
    ∀ m ∈ t'.firstpos, Q (h'.greedyOf m) := by
  induction t generalizing t' with
  | leaf n a =>
    cases t' <;> try exact H.elim
    rename_i m b
    obtain ⟨h1, h2, h3⟩ := H
    subst h1
    cases a with
    | true => simp [firstpos]
    | false =>
      intro k hk; simp [firstpos] at hk; subst hk
      rw [← h3]; exact hq n (by simp [firstpos])
  | fin n => cases t' <;> exact H.elim
  | seq l r ihl ihr =>
    cases t' <;> try exact H.elim
    rename_i l' r'
    intro m hm
    simp only [firstpos, List.mem_append] at hm hq
    rcases hm with hm | hm
    · exact ihl H.1 (fun n hn => hq n (.inl hn)) m hm
    · split at hm
      · rename_i hn
        rw [← H.1.nullable] at hn
        exact ihr H.2 (fun n h => hq n (.inr (by rw [if_pos hn]; exact h))) m hm
      · cases hm
  | sel l r ihl ihr =>
    cases t' <;> try exact H.elim
    rename_i l' r'
    intro m hm
    simp only [firstpos, List.mem_append] at hm hq
    rcases hm with hm | hm
    · exact ihl H.1 (fun n hn => hq n (.inl hn)) m hm
    · exact ihr H.2 (fun n hn => hq n (.inr hn)) m hm
  | iter t g ih =>
    cases t' <;> try exact H.elim
    have := ih H.2 hq
    exact this

theorem SameShape.greedyOk {h h' : Heap} {t t' : Tree} (H : SameShape h h' t t')
    (hg : t.GreedyOk h) : t'.GreedyOk h' := by
  induction t generalizing t' with
  | leaf n a => cases t' <;> try exact H.elim
                trivial
  | fin n => cases t' <;> exact H.elim
  | seq l r ihl ihr =>
    cases t' <;> try exact H.elim
    exact ⟨ihl H.1 hg.1, ihr H.2 hg.2⟩
  | sel l r ihl ihr =>
    cases t' <;> try exact H.elim
    exact ⟨ihl H.1 hg.1, ihr H.2 hg.2⟩
  | iter t g ih =>
    cases t' <;> try exact H.elim
    rename_i t' g'
    obtain ⟨rfl, H⟩ := H
    exact ⟨H.first (fun o => o = some .hard ∨ o = some g) hg.1, hg.2.1, ih H hg.2.2⟩

theorem SameShape.noFin {h h' : Heap} {t t' : Tree} (H : SameShape h h' t t') :
    t'.noFin = true := by
  induction t generalizing t' with
  | leaf n a => cases t' <;> try exact H.elim
                rfl
  | fin n => cases t' <;> exact H.elim
  | seq l r ihl ihr =>
    cases t' <;> try exact H.elim
    simp [Tree.noFin, ihl H.1, ihr H.2]
  | sel l r ihl ihr =>
    cases t' <;> try exact H.elim
    simp [Tree.noFin, ihl H.1, ihr H.2]
  | iter t g ih => cases t' <;> try exact H.elim
                   have := ih H.2
                   exact this

theorem GreedyOk.congr {h h' : Heap} {t : Tree} (H : t.GreedyOk h)
    (e : ∀ n ∈ t.pos, h'.greedyOf n = h.greedyOf n) : t.GreedyOk h' := by
  induction t with
  | leaf => trivial
  | fin => trivial
  | seq l r ihl ihr =>
    exact ⟨ihl H.1 fun n hn => e n (by simp [pos, hn]), ihr H.2 fun n hn => e n (by simp [pos, hn])⟩
  | sel l r ihl ihr =>
    exact ⟨ihl H.1 fun n hn => e n (by simp [pos, hn]), ihr H.2 fun n hn => e n (by simp [pos, hn])⟩
  | iter t g ih =>
    refine ⟨fun n hn => ?_, H.2.1, ih H.2.2 e⟩
    rw [e n (firstpos_sub t n hn)]; exact H.1 n hn

/-- Setting the greediness (to `hard` or `no`) of some leaves keeps `GreedyOk`. -/
theorem GreedyOk.set {h h' : Heap} {t : Tree} {g : Greedy} {S : List Nat} (H : t.GreedyOk h)
    (hg : g ≠ .yes)
    (e : ∀ n, h'.greedyOf n = if n ∈ S then (h.greedyOf n).map (Heap.upd · g) else h.greedyOf n) :
    t.GreedyOk h' := by
  induction t with
  | leaf => trivial
  | fin => trivial
  | seq l r ihl ihr => exact ⟨ihl H.1, ihr H.2⟩
  | sel l r ihl ihr => exact ⟨ihl H.1, ihr H.2⟩
  | iter t g' ih =>
    refine ⟨fun n hn => ?_, H.2.1, ih H.2.2⟩
    have h1 := H.1 n hn
    have h2 := H.2.1
    rw [e]
    split
    · rcases h1 with h1 | h1 <;> rw [h1] <;> cases g <;> cases g' <;> simp_all [Heap.upd]
    · exact h1

end Tree

namespace Heap

theorem cell_of_obs {h h' : Heap} {n : Nat} (hn : n < h.length) (hn' : n < h'.length)
    (h1 : h'.tokOf n = h.tokOf n) (h2 : h'.greedyOf n = h.greedyOf n)
    (h3 : h'.finOf n = h.finOf n) (h4 : h'.fol n = h.fol n) : h'[n]? = h[n]? := by
  unfold tokOf at h1; unfold greedyOf at h2; unfold finOf at h3; unfold fol at h4
  rw [List.getElem?_eq_getElem hn] at *
  rw [List.getElem?_eq_getElem hn'] at *
  generalize h[n] = a at *
  generalize h'[n] = b at *
  obtain ⟨ad, af⟩ := a
  obtain ⟨bd, bf⟩ := b
  cases ad <;> cases bd <;> simp_all

theorem prefix_of_obs {h h' : Heap} (hl : h.length ≤ h'.length)
    (e : ∀ n, n < h.length → h'.tokOf n = h.tokOf n ∧ h'.greedyOf n = h.greedyOf n ∧
      h'.finOf n = h.finOf n ∧ h'.fol n = h.fol n) : ∃ x, h' = h ++ x := by
  refine ⟨h'.drop h.length, ?_⟩
  rw [← List.take_append_drop h.length h']
  rw [List.drop_append_of_le_length (by simp; omega), List.drop_take]
  simp only [Nat.sub_self, List.take_zero, List.nil_append]
  congr 1
  apply List.ext_getElem?
  intro n
  rw [List.getElem?_take]
  split
  · rename_i hn
    have := e n hn
    exact cell_of_obs hn (by omega) this.1 this.2.1 this.2.2.1 this.2.2.2
  · rw [List.getElem?_eq_none (by omega)]

end Heap

namespace CopyState
open Tree

theorem run_down (nt fuel : Nat) (s : CopyState) (h : s.down = true) :
    run nt (fuel + 1) s = (do run nt fuel (← s.traverse)) := by
  rw [run, if_pos h]

theorem run_up (nt fuel : Nat) (ns : List Tree) (t : Tree) (ps : List Bool) (new : List Tree)
    (h : Heap) : run nt (fuel + 1) ⟨t :: ns, ps, false, new, h⟩ =
      (do run nt fuel (← copyNode nt ⟨t :: ns, ps, false, new, h⟩ t ns)) := by
  rw [run]; rfl

/-- What copying `t` in heap `h` must deliver. -/
def Good (nt : Nat) (h : Heap) (t : Tree) (e : Heap) (t' : Tree) : Prop :=
  SameShape h (h ++ e) t t' ∧ t'.Lay nt (h ++ e) ∧ ∀ n ∈ t'.pos, h.length ≤ n

theorem good_leaf (nt : Nat) (h : Heap) (n : Nat) (null : Bool) (hw : (Tree.leaf n null).Wf nt h) :
    ∃ tk g f, h[n]? = some ⟨.leaf tk g, f⟩ ∧
      Good nt h (.leaf n null) [⟨.leaf tk g, []⟩] (.leaf h.length (tk == nt)) := by
  obtain ⟨t, h1, h2⟩ := hw
  have hlt := Heap.tokOf_lt h1
  unfold Heap.tokOf at h1
  cases hc : h[n]? with
  | none => rw [hc] at h1; simp at h1
  | some c =>
    rw [hc] at h1
    obtain ⟨d, f⟩ := c
    cases d with
    | fin => simp at h1
    | leaf tk g =>
      simp at h1; subst h1
      refine ⟨tk, g, f, rfl, ⟨h2, ?_, ?_⟩, Heap.newLeaf_lay nt h tk g, by simp [pos]⟩
      · simp [Heap.tokOf, hc]
      · simp [Heap.greedyOf, hc]

/-- The machine copies the tree on top of the node stack. -/
theorem run_copy (nt : Nat) (t : Tree) : ∀ (h : Heap) (ns : List Tree) (ps : List Bool)
    (new : List Tree), t.Wf nt h → t.noFin = true → t.GreedyOk h →
    ∃ k e t', k ≤ 4 * t.size ∧ Good nt h t e t' ∧
      ∀ fuel, run nt (fuel + k) ⟨t :: ns, ps, true, new, h⟩ =
        run nt fuel ⟨ns, ps, false, t' :: new, h ++ e⟩ := by
  have wf_app : ∀ {h : Heap} {t : Tree} (e : Heap), t.Wf nt h → t.Wf nt (h ++ e) := by
    intro h t e H
    exact H.congr fun n hn =>
      let o := Heap.obs_append_left h e n (H.lt n hn); ⟨o.1, o.2.2.1⟩
  have go_app : ∀ {h : Heap} {t : Tree} (e : Heap), t.Wf nt h → t.GreedyOk h → t.GreedyOk (h ++ e) := by
    intro h t e H G
    exact G.congr fun n hn => (Heap.obs_append_left h e n (H.lt n hn)).2.1
  induction t with
  | leaf n null =>
    intro h ns ps new hw _ _
    obtain ⟨tk, g, f, hc, hgood⟩ := good_leaf nt h n null hw
    refine ⟨2, _, _, by simp [Tree.size], hgood, fun fuel => ?_⟩
    rw [show fuel + 2 = (fuel + 1) + 1 from rfl, run_down _ _ _ rfl]
    simp only [traverse, bind, Except.bind]
    rw [run_up]
    simp only [copyNode, hc, Heap.newLeaf, bind, Except.bind]
  | fin n => intro _ _ _ _ _ hf; simp [noFin] at hf
  | iter t g ih =>
    intro h ns ps new hw hf hg
    obtain ⟨k, e, t', hk, ⟨g1, g2, g3⟩, hrun⟩ := ih h (.iter t g :: ns) (true :: ps) new hw hf hg.2.2
    have hgk : t'.GreedyOk (h ++ e) := g1.greedyOk hg.2.2
    obtain ⟨h2, a1, a2, a3, a4, a5, a6⟩ := Heap.newIter_lay nt (h ++ e) t' g g2 g1.noFin
    have hgr : ∀ m, h2.greedyOf m = (h ++ e).greedyOf m := by
      intro m
      rw [a6]
      split
      · rename_i hm
        have := g1.first (fun o => o = some .hard ∨ o = some g) hg.1 m hm
        rcases this with h | h <;> rw [h] <;> cases g <;> rfl
      · rfl
    obtain ⟨x, rfl⟩ := Heap.prefix_of_obs (h := h) (h' := h2) (by rw [a3]; simp) (by
      intro n hn
      have o := Heap.obs_append_left h e n hn
      refine ⟨(a4 n).1.trans o.1, (hgr n).trans o.2.1, (a4 n).2.trans o.2.2.1, ?_⟩
      rw [a5 n fun hm => by have := g3 n hm; omega]; exact o.2.2.2)
    refine ⟨1 + k + 1, x, .iter t' g, by simp [Tree.size]; omega, ⟨⟨rfl, ?_⟩, a2, g3⟩, fun fuel => ?_⟩
    · exact g1.congr_right fun n _ => ⟨(a4 n).1, hgr n⟩
    · rw [show fuel + (1 + k + 1) = (fuel + 1 + k) + 1 from by omega, run_down _ _ _ rfl]
      simp only [traverse, bind, Except.bind]
      rw [hrun, run_up]
      simp only [copyNode, bind, Except.bind, a1]
  | sel l r ihl ihr =>
    intro h ns ps new hw hf hg
    simp only [noFin, Bool.and_eq_true] at hf
    obtain ⟨k1, e1, l', hk1, ⟨g1, g2, g3⟩, hrun1⟩ := ihl h (r :: .sel l r :: ns)
      ((if r.isOp then [false] else []) ++ true :: ps) new hw.1 hf.1 hg.1
    obtain ⟨k2, e2, r', hk2, ⟨f1, f2, f3⟩, hrun2⟩ :
        ∃ k e t', k ≤ 4 * r.size + 1 ∧ Good nt (h ++ e1) r e t' ∧ ∀ fuel,
          run nt (fuel + k) ⟨r :: .sel l r :: ns, (if r.isOp then [false] else []) ++ true :: ps,
            false, l' :: new, h ++ e1⟩ =
          run nt fuel ⟨.sel l r :: ns, true :: ps, false, t' :: l' :: new, h ++ e1 ++ e⟩ := by
      by_cases hop : r.isOp = true
      · obtain ⟨k, e, t', hk, hgood, hrun⟩ := ihr (h ++ e1) (.sel l r :: ns) (true :: ps) (l' :: new)
          (wf_app e1 hw.2) hf.2 (go_app e1 hw.2 hg.2)
        refine ⟨k + 1, e, t', by omega, hgood, fun fuel => ?_⟩
        rw [if_pos hop, show fuel + (k + 1) = (fuel + k) + 1 from by omega, run_up]
        have : copyNode nt ⟨r :: .sel l r :: ns, [false] ++ true :: ps, false, l' :: new, h ++ e1⟩ r
            (.sel l r :: ns) = .ok ⟨r :: .sel l r :: ns, true :: ps, true, l' :: new, h ++ e1⟩ := by
          cases r <;> first | rfl | (simp [isOp] at hop)
        rw [this]
        exact hrun fuel
      · cases r with
        | leaf n null =>
          obtain ⟨tk, g, f, hc, hgood⟩ := good_leaf nt (h ++ e1) n null (wf_app e1 hw.2)
          refine ⟨1, _, _, by omega, hgood, fun fuel => ?_⟩
          rw [run_up]
          simp only [isOp, copyNode, hc, Heap.newLeaf, bind, Except.bind]
          rfl
        | fin => simp [noFin] at hf
        | seq => simp [isOp] at hop
        | sel => simp [isOp] at hop
        | iter => simp [isOp] at hop
    refine ⟨1 + k1 + k2 + 1, e1 ++ e2, .sel l' r', by simp [Tree.size]; omega, ⟨⟨?_, ?_⟩, ?_, ?_⟩, ?_⟩
    · rw [← List.append_assoc]
      exact g1.congr_right fun n hn =>
        let o := Heap.obs_append_left (h ++ e1) e2 n (g2.wf.lt n hn); ⟨o.1, o.2.1⟩
    · rw [← List.append_assoc]
      exact f1.congr_left fun n hn =>
        let o := Heap.obs_append_left h e1 n (hw.2.lt n hn); ⟨o.1.symm, o.2.1.symm⟩
    · rw [← List.append_assoc]
      refine ⟨⟨(g2.append e2).wf, f2.wf⟩, ?_, ?_⟩
      · simp only [pos]
        exact List.nodup_append.2 ⟨g2.nodup, f2.nodup, fun a ha b hb he => by
          have := g2.wf.lt a ha; have := f3 b hb; omega⟩
      · intro n hn
        simp only [pos, List.mem_append] at hn
        rw [Tree.follow]
        rcases hn with hn | hn
        · rw [(g2.append e2).fol n hn, follow_out r' n fun h' => by
            have := g2.wf.lt n hn; have := f3 n h'; omega]
          simp
        · rw [f2.fol n hn, follow_out l' n fun h' => by
            have := g2.wf.lt n h'; have := f3 n hn; omega]
          simp
    · intro n hn
      simp only [pos, List.mem_append] at hn
      rcases hn with hn | hn
      · exact g3 n hn
      · have := f3 n hn; simp at this; omega
    · intro fuel
      rw [show fuel + (1 + k1 + k2 + 1) = (fuel + 1 + k2 + k1) + 1 from by omega, run_down _ _ _ rfl]
      simp only [traverse, bind, Except.bind]
      rw [hrun1, hrun2, run_up]
      simp only [copyNode, bind, Except.bind, List.append_assoc]
  | seq l r ihl ihr =>
    intro h ns ps new hw hf hg
    simp only [noFin, Bool.and_eq_true] at hf
    obtain ⟨k1, e1, l', hk1, ⟨g1, g2, g3⟩, hrun1⟩ := ihl h (r :: .seq l r :: ns)
      ((if r.isOp then [false] else []) ++ true :: ps) new hw.1 hf.1 hg.1
    obtain ⟨k2, e2, r', hk2, ⟨f1, f2, f3⟩, hrun2⟩ :
        ∃ k e t', k ≤ 4 * r.size + 1 ∧ Good nt (h ++ e1) r e t' ∧ ∀ fuel,
          run nt (fuel + k) ⟨r :: .seq l r :: ns, (if r.isOp then [false] else []) ++ true :: ps,
            false, l' :: new, h ++ e1⟩ =
          run nt fuel ⟨.seq l r :: ns, true :: ps, false, t' :: l' :: new, h ++ e1 ++ e⟩ := by
      by_cases hop : r.isOp = true
      · obtain ⟨k, e, t', hk, hgood, hrun⟩ := ihr (h ++ e1) (.seq l r :: ns) (true :: ps) (l' :: new)
          (wf_app e1 hw.2) hf.2 (go_app e1 hw.2 hg.2)
        refine ⟨k + 1, e, t', by omega, hgood, fun fuel => ?_⟩
        rw [if_pos hop, show fuel + (k + 1) = (fuel + k) + 1 from by omega, run_up]
        have : copyNode nt ⟨r :: .seq l r :: ns, [false] ++ true :: ps, false, l' :: new, h ++ e1⟩ r
            (.seq l r :: ns) = .ok ⟨r :: .seq l r :: ns, true :: ps, true, l' :: new, h ++ e1⟩ := by
          cases r <;> first | rfl | (simp [isOp] at hop)
        rw [this]
        exact hrun fuel
      · cases r with
        | leaf n null =>
          obtain ⟨tk, g, f, hc, hgood⟩ := good_leaf nt (h ++ e1) n null (wf_app e1 hw.2)
          refine ⟨1, _, _, by omega, hgood, fun fuel => ?_⟩
          rw [run_up]
          simp only [isOp, copyNode, hc, Heap.newLeaf, bind, Except.bind]
          rfl
        | fin => simp [noFin] at hf
        | seq => simp [isOp] at hop
        | sel => simp [isOp] at hop
        | iter => simp [isOp] at hop
    obtain ⟨h2, a1, a2, a3, a4, a5⟩ := Heap.newSeq_lay nt (h ++ e1 ++ e2) l' r' (g2.append e2) f2
      g1.noFin (fun a ha hb => by have := g2.wf.lt a ha; have := f3 a hb; omega)
    obtain ⟨x, rfl⟩ := Heap.prefix_of_obs (h := h) (h' := h2) (by rw [a3]; simp) (by
      intro n hn
      have o := Heap.obs_append_left h (e1 ++ e2) n hn
      rw [← List.append_assoc] at o
      refine ⟨(a4 n).1.trans o.1, (a4 n).2.1.trans o.2.1, (a4 n).2.2.trans o.2.2.1, ?_⟩
      rw [a5 n fun hm => by have := g3 n hm; omega]; exact o.2.2.2)
    refine ⟨1 + k1 + k2 + 1, x, .seq l' r', by simp [Tree.size]; omega, ⟨⟨?_, ?_⟩, a2, ?_⟩, ?_⟩
    · exact g1.congr_right fun n hn =>
        let o := Heap.obs_append_left (h ++ e1) e2 n (g2.wf.lt n hn)
        ⟨(a4 n).1.trans o.1, (a4 n).2.1.trans o.2.1⟩
    · refine SameShape.congr_right (h1 := h ++ e1 ++ e2) ?_ fun n _ => ⟨(a4 n).1, (a4 n).2.1⟩
      exact f1.congr_left fun n hn =>
        let o := Heap.obs_append_left h e1 n (hw.2.lt n hn); ⟨o.1.symm, o.2.1.symm⟩
    · intro n hn
      simp only [pos, List.mem_append] at hn
      rcases hn with hn | hn
      · exact g3 n hn
      · have := f3 n hn; simp at this; omega
    · intro fuel
      rw [show fuel + (1 + k1 + k2 + 1) = (fuel + 1 + k2 + k1) + 1 from by omega, run_down _ _ _ rfl]
      simp only [traverse, bind, Except.bind]
      rw [hrun1, hrun2, run_up]
      simp only [copyNode, bind, Except.bind, a1]

end CopyState

theorem Heap.copy_spec (nt : Nat) (h : Heap) (t : Tree) (hw : t.Wf nt h) (hf : t.noFin = true)
    (hg : t.GreedyOk h) :
    ∃ e t', h.copy nt t = .ok (h ++ e, t') ∧ Tree.SameShape h (h ++ e) t t' ∧
      t'.Lay nt (h ++ e) ∧ ∀ n ∈ t'.pos, h.length ≤ n := by
  obtain ⟨k, e, t', hk, ⟨h1, h2, h3⟩, hrun⟩ := CopyState.run_copy nt t h [] [] [] hw hf hg
  refine ⟨e, t', ?_, h1, h2, h3⟩
  unfold Heap.copy
  rw [show 4 * t.size + 1 = (4 * t.size - k + 1) + k from by omega, hrun]
  simp only [CopyState.run]
  rfl

end Lexertl
