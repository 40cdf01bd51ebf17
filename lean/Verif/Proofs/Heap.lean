import Verif.Proofs.Tree

/-
Effect of the node constructors on the heap, and the invariant tying a tree to
its nodes.
-/
namespace Lexertl

namespace Heap

/-- Token of a leaf. -/
def tokOf (h : Heap) (n : Nat) : Option Nat :=
  match h[n]? with
  | some ⟨.leaf t _, _⟩ => some t
  | _ => none

/-- Greediness of a leaf. -/
def greedyOf (h : Heap) (n : Nat) : Option Greedy :=
  match h[n]? with
  | some ⟨.leaf _ g, _⟩ => some g
  | _ => none

/-- Payload of an end node. -/
def finOf (h : Heap) (n : Nat) : Option NodeData :=
  match h[n]? with
  | some ⟨.fin a b c d e f g, _⟩ => some (.fin a b c d e f g)
  | _ => none

/-- Follow positions stored in a node. -/
def fol (h : Heap) (n : Nat) : List Nat :=
  match h[n]? with
  | some c => c.follow
  | none => []

theorem tokOf_lt {h : Heap} {n t : Nat} (H : h.tokOf n = some t) : n < h.length := by
  unfold tokOf at H
  by_cases hn : n < h.length
  · exact hn
  · rw [List.getElem?_eq_none (by omega)] at H; simp at H

theorem finOf_lt {h : Heap} {n : Nat} {t : NodeData} (H : h.finOf n = some t) : n < h.length := by
  unfold finOf at H
  by_cases hn : n < h.length
  · exact hn
  · rw [List.getElem?_eq_none (by omega)] at H; simp at H

theorem fol_out {h : Heap} {n : Nat} (H : h.length ≤ n) : h.fol n = [] := by
  unfold fol; rw [List.getElem?_eq_none H]

theorem obs_append_left (h e : Heap) (n : Nat) (hn : n < h.length) :
    tokOf (h ++ e) n = h.tokOf n ∧ greedyOf (h ++ e) n = h.greedyOf n ∧
    finOf (h ++ e) n = h.finOf n ∧ fol (h ++ e) n = h.fol n := by
  unfold tokOf greedyOf finOf fol
  rw [List.getElem?_append_left hn]
  exact ⟨rfl, rfl, rfl, rfl⟩

theorem appendFollow_spec (h : Heap) (n t : Nat) (fp : List Nat) (hn : h.tokOf n = some t) :
    ∃ h', h.appendFollow n fp = .ok h' ∧ h'.length = h.length ∧
      (∀ m, h'.tokOf m = h.tokOf m ∧ h'.greedyOf m = h.greedyOf m ∧ h'.finOf m = h.finOf m) ∧
      (∀ m, h'.fol m = h.fol m ++ (if m = n then fp else [])) := by
  have hlt := tokOf_lt hn
  unfold tokOf at hn
  cases hc : h[n]? with
  | none => rw [hc] at hn; simp at hn
  | some c =>
    rw [hc] at hn
    obtain ⟨d, f⟩ := c
    cases d with
    | fin => simp at hn
    | leaf tk g =>
      refine ⟨h.set n ⟨.leaf tk g, f ++ fp⟩, ?_, by simp, ?_, ?_⟩
      · unfold appendFollow; rw [hc]
      · intro m
        unfold tokOf greedyOf finOf
        rw [List.getElem?_set]
        by_cases hm : n = m
        · subst hm; rw [hc]; simp [hlt]
        · simp [hm]
      · intro m
        unfold fol
        rw [List.getElem?_set]
        by_cases hm : n = m
        · subst hm; rw [hc]; simp [hlt]
        · simp [hm, Ne.symm hm]

theorem appendFollowAll_spec (ns : List Nat) (fp : List Nat) (h : Heap)
    (hns : ∀ n ∈ ns, ∃ t, h.tokOf n = some t) (hnd : ns.Nodup) :
    ∃ h', h.appendFollowAll ns fp = .ok h' ∧ h'.length = h.length ∧
      (∀ m, h'.tokOf m = h.tokOf m ∧ h'.greedyOf m = h.greedyOf m ∧ h'.finOf m = h.finOf m) ∧
      (∀ m, h'.fol m = h.fol m ++ (if m ∈ ns then fp else [])) := by
  induction ns generalizing h with
  | nil => exact ⟨h, rfl, rfl, fun m => ⟨rfl, rfl, rfl⟩, by simp⟩
  | cons n ns ih =>
    obtain ⟨t, ht⟩ := hns n (by simp)
    obtain ⟨h1, a1, a2, a3, a4⟩ := appendFollow_spec h n t fp ht
    obtain ⟨h2, b1, b2, b3, b4⟩ := ih h1
      (by intro m hm; rw [(a3 m).1]; exact hns m (by simp [hm])) (List.nodup_cons.1 hnd).2
    refine ⟨h2, ?_, by omega, ?_, ?_⟩
    · rw [appendFollowAll, a1]; exact b1
    · intro m
      rw [(b3 m).1, (b3 m).2.1, (b3 m).2.2]; exact a3 m
    · intro m
      rw [b4, a4, List.append_assoc]
      congr 1
      by_cases hm : m = n
      · subst hm
        simp [(List.nodup_cons.1 hnd).1]
      · simp [hm]

/-- What `greedy(g)` makes of the old value. -/
def upd (old g : Greedy) : Greedy := if old = .hard then old else g

theorem setGreedy_spec (h : Heap) (n t : Nat) (g : Greedy) (hn : h.tokOf n = some t) :
    ∃ h', h.setGreedy n g = .ok h' ∧ h'.length = h.length ∧
      (∀ m, h'.tokOf m = h.tokOf m ∧ h'.finOf m = h.finOf m ∧ h'.fol m = h.fol m) ∧
      (∀ m, h'.greedyOf m = if m = n then (h.greedyOf m).map (upd · g) else h.greedyOf m) := by
  have hlt := tokOf_lt hn
  unfold tokOf at hn
  cases hc : h[n]? with
  | none => rw [hc] at hn; simp at hn
  | some c =>
    rw [hc] at hn
    obtain ⟨d, f⟩ := c
    cases d with
    | fin => simp at hn
    | leaf tk g0 =>
      refine ⟨h.set n ⟨.leaf tk (if g0 = .hard then g0 else g), f⟩, ?_, by simp, ?_, ?_⟩
      · unfold setGreedy; rw [hc]
      · intro m
        unfold tokOf fol finOf
        rw [List.getElem?_set]
        by_cases hm : n = m
        · subst hm; rw [hc]; simp [hlt]
        · simp [hm]
      · intro m
        unfold greedyOf
        rw [List.getElem?_set]
        by_cases hm : n = m
        · subst hm; rw [hc]; simp [hlt, upd]
        · simp [hm, Ne.symm hm]

theorem upd_idem (o g : Greedy) : upd (upd o g) g = upd o g := by
  cases o <;> cases g <;> rfl

theorem setGreedyAll_spec (ns : List Nat) (g : Greedy) (h : Heap)
    (hns : ∀ n ∈ ns, ∃ t, h.tokOf n = some t) :
    ∃ h', h.setGreedyAll ns g = .ok h' ∧ h'.length = h.length ∧
      (∀ m, h'.tokOf m = h.tokOf m ∧ h'.finOf m = h.finOf m ∧ h'.fol m = h.fol m) ∧
      (∀ m, h'.greedyOf m = if m ∈ ns then (h.greedyOf m).map (upd · g) else h.greedyOf m) := by
  induction ns generalizing h with
  | nil => exact ⟨h, rfl, rfl, fun m => ⟨rfl, rfl, rfl⟩, by simp⟩
  | cons n ns ih =>
    obtain ⟨t, ht⟩ := hns n (by simp)
    obtain ⟨h1, a1, a2, a3, a4⟩ := setGreedy_spec h n t g ht
    obtain ⟨h2, b1, b2, b3, b4⟩ := ih h1
      (by intro m hm; rw [(a3 m).1]; exact hns m (by simp [hm]))
    refine ⟨h2, ?_, by omega, ?_, ?_⟩
    · rw [setGreedyAll, a1]; exact b1
    · intro m
      rw [(b3 m).1, (b3 m).2.1, (b3 m).2.2]; exact a3 m
    · intro m
      rw [b4, a4]
      by_cases hm : m = n
      · subst hm
        cases h.greedyOf m <;> simp [upd_idem]
      · simp [hm]

end Heap

namespace Tree

/-- Leaves of the tree are leaves of the heap with the right `_nullable`; end
nodes are end nodes. -/
def Wf (nt : Nat) (h : Heap) : Tree → Prop
  | leaf n null => ∃ t, h.tokOf n = some t ∧ null = (t == nt)
  | fin n => ∃ d, h.finOf n = some d
  | seq l r => l.Wf nt h ∧ r.Wf nt h
  | sel l r => l.Wf nt h ∧ r.Wf nt h
  | iter t _ => t.Wf nt h

/-- The tree has distinct nodes, they are in the heap, and their stored follow
positions are those of the tree. -/
structure Lay (nt : Nat) (h : Heap) (t : Tree) : Prop where
  wf : t.Wf nt h
  nodup : t.pos.Nodup
  fol : ∀ n ∈ t.pos, h.fol n = t.follow n

theorem Wf.congr {nt : Nat} {h h' : Heap} {t : Tree} (H : t.Wf nt h)
    (e : ∀ n ∈ t.pos, h'.tokOf n = h.tokOf n ∧ h'.finOf n = h.finOf n) : t.Wf nt h' := by
  induction t with
  | leaf n null =>
    obtain ⟨t, h1, h2⟩ := H
    exact ⟨t, by rw [(e n (by simp [pos])).1, h1], h2⟩
  | fin n =>
    obtain ⟨t, h1⟩ := H
    exact ⟨t, by rw [(e n (by simp [pos])).2, h1]⟩
  | seq l r ihl ihr =>
    exact ⟨ihl H.1 fun n hn => e n (by simp [pos, hn]), ihr H.2 fun n hn => e n (by simp [pos, hn])⟩
  | sel l r ihl ihr =>
    exact ⟨ihl H.1 fun n hn => e n (by simp [pos, hn]), ihr H.2 fun n hn => e n (by simp [pos, hn])⟩
  | iter t g ih => exact ih H e

theorem Wf.lt {nt : Nat} {h : Heap} {t : Tree} (H : t.Wf nt h) : ∀ n ∈ t.pos, n < h.length := by
  induction t with
  | leaf n null =>
    obtain ⟨t, h1, _⟩ := H
    intro m hm; simp [pos] at hm; subst hm; exact Heap.tokOf_lt h1
  | fin n =>
    obtain ⟨t, h1⟩ := H
    intro m hm; simp [pos] at hm; subst hm; exact Heap.finOf_lt h1
  | seq l r ihl ihr =>
    intro n hn; simp only [pos, List.mem_append] at hn; exact hn.elim (ihl H.1 n) (ihr H.2 n)
  | sel l r ihl ihr =>
    intro n hn; simp only [pos, List.mem_append] at hn; exact hn.elim (ihl H.1 n) (ihr H.2 n)
  | iter t g ih => exact ih H

/-- In a tree without end nodes all positions are leaves. -/
theorem Wf.tok {nt : Nat} {h : Heap} {t : Tree} (H : t.Wf nt h) (hf : t.noFin = true) :
    ∀ n ∈ t.pos, ∃ k, h.tokOf n = some k := by
  induction t with
  | leaf n null =>
    obtain ⟨t, h1, _⟩ := H
    intro m hm; simp [pos] at hm; subst hm; exact ⟨t, h1⟩
  | fin n => simp [noFin] at hf
  | seq l r ihl ihr =>
    simp only [noFin, Bool.and_eq_true] at hf
    intro n hn; simp only [pos, List.mem_append] at hn
    exact hn.elim (ihl H.1 hf.1 n) (ihr H.2 hf.2 n)
  | sel l r ihl ihr =>
    simp only [noFin, Bool.and_eq_true] at hf
    intro n hn; simp only [pos, List.mem_append] at hn
    exact hn.elim (ihl H.1 hf.1 n) (ihr H.2 hf.2 n)
  | iter t g ih => exact ih H hf

/-- First positions are end nodes or leaves with a proper token. -/
theorem Wf.first {nt : Nat} {h : Heap} {t : Tree} (H : t.Wf nt h) :
    ∀ n ∈ t.firstpos, (∃ k, h.tokOf n = some k ∧ k ≠ nt) ∨ ∃ d, h.finOf n = some d := by
  induction t with
  | leaf n null =>
    obtain ⟨t, h1, h2⟩ := H
    intro m hm
    cases null with
    | true => simp [firstpos] at hm
    | false => simp [firstpos] at hm; subst hm; exact .inl ⟨t, h1, by simpa using h2.symm⟩
  | fin n => intro m hm; simp [firstpos] at hm; subst hm; exact .inr H
  | seq l r ihl ihr =>
    intro n hn; simp only [firstpos, List.mem_append] at hn
    rcases hn with hn | hn
    · exact ihl H.1 n hn
    · split at hn
      · exact ihr H.2 n hn
      · cases hn
  | sel l r ihl ihr =>
    intro n hn; simp only [firstpos, List.mem_append] at hn
    exact hn.elim (ihl H.1 n) (ihr H.2 n)
  | iter t g ih => exact ih H

theorem Wf.follow {nt : Nat} {h : Heap} {t : Tree} (H : t.Wf nt h) :
    ∀ p, ∀ n ∈ t.follow p, (∃ k, h.tokOf n = some k ∧ k ≠ nt) ∨ ∃ d, h.finOf n = some d := by
  induction t with
  | leaf n null => simp [Tree.follow]
  | fin n => simp [Tree.follow]
  | seq l r ihl ihr =>
    intro p n hn; simp only [Tree.follow, List.mem_append] at hn
    rcases hn with (hn | hn) | hn
    · exact ihl H.1 p n hn
    · exact ihr H.2 p n hn
    · split at hn
      · exact H.2.first n hn
      · cases hn
  | sel l r ihl ihr =>
    intro p n hn; simp only [Tree.follow, List.mem_append] at hn
    exact hn.elim (ihl H.1 p n) (ihr H.2 p n)
  | iter t g ih =>
    intro p n hn; simp only [Tree.follow, List.mem_append] at hn
    rcases hn with hn | hn
    · exact ih H p n hn
    · split at hn
      · exact Wf.first (t := t) H n hn
      · cases hn

/-- A tree is laid out in `h'` if it is in `h` and `h'` agrees on its nodes. -/
theorem Lay.congr {nt : Nat} {h h' : Heap} {t : Tree} (H : t.Lay nt h)
    (e : ∀ n ∈ t.pos, h'.tokOf n = h.tokOf n ∧ h'.finOf n = h.finOf n ∧ h'.fol n = h.fol n) :
    t.Lay nt h' where
  wf := H.wf.congr fun n hn => ⟨(e n hn).1, (e n hn).2.1⟩
  nodup := H.nodup
  fol := fun n hn => by rw [(e n hn).2.2, H.fol n hn]

theorem Lay.append {nt : Nat} {h : Heap} {t : Tree} (H : t.Lay nt h) (e : Heap) :
    t.Lay nt (h ++ e) :=
  H.congr fun n hn =>
    let o := Heap.obs_append_left h e n (H.wf.lt n hn)
    ⟨o.1, o.2.2.1, o.2.2.2⟩

end Tree

namespace Heap
open Tree

theorem newLeaf_lay (nt : Nat) (h : Heap) (token : Nat) (g : Greedy) :
    (h.newLeaf nt token g).2.Lay nt (h.newLeaf nt token g).1 := by
  refine ⟨⟨token, ?_, rfl⟩, by simp [newLeaf, pos], ?_⟩
  · simp [newLeaf, tokOf]
  · intro n hn
    simp [newLeaf, pos] at hn
    subst hn
    simp [newLeaf, Heap.fol, Tree.follow]

theorem newSeq_lay (nt : Nat) (h : Heap) (l r : Tree) (hl : l.Lay nt h) (hr : r.Lay nt h)
    (hf : l.noFin = true) (hd : ∀ a ∈ l.pos, a ∉ r.pos) :
    ∃ h', h.newSeq l r = .ok (h', .seq l r) ∧ (Tree.seq l r).Lay nt h' ∧ h'.length = h.length ∧
      (∀ m, h'.tokOf m = h.tokOf m ∧ h'.greedyOf m = h.greedyOf m ∧ h'.finOf m = h.finOf m) ∧
      (∀ m, m ∉ l.pos → h'.fol m = h.fol m) := by
  obtain ⟨h', a1, a2, a3, a4⟩ := appendFollowAll_spec l.lastpos r.firstpos h
    (fun n hn => hl.wf.tok hf n (lastpos_sub l n hn)) (lastpos_nodup l hl.nodup)
  refine ⟨h', ?_, ⟨⟨hl.wf.congr fun n _ => ⟨(a3 n).1, (a3 n).2.2⟩,
    hr.wf.congr fun n _ => ⟨(a3 n).1, (a3 n).2.2⟩⟩, ?_, ?_⟩, a2, a3, ?_⟩
  · unfold newSeq; rw [a1]; rfl
  · simp only [pos]
    exact List.nodup_append.2 ⟨hl.nodup, hr.nodup, fun a ha b hb he => hd a ha (he ▸ hb)⟩
  · intro n hn
    simp only [pos, List.mem_append] at hn
    rw [a4, Tree.follow]
    congr 1
    rcases hn with hn | hn
    · rw [hl.fol n hn, follow_out r n (hd n hn), List.append_nil]
    · rw [hr.fol n hn, follow_out l n fun h => hd n h hn, List.nil_append]
  · intro m hm
    rw [a4, if_neg fun h => hm (lastpos_sub l m h), List.append_nil]

theorem newIter_lay (nt : Nat) (h : Heap) (t : Tree) (g : Greedy) (ht : t.Lay nt h)
    (hf : t.noFin = true) :
    ∃ h', h.newIter t g = .ok (h', .iter t g) ∧ (Tree.iter t g).Lay nt h' ∧ h'.length = h.length ∧
      (∀ m, h'.tokOf m = h.tokOf m ∧ h'.finOf m = h.finOf m) ∧
      (∀ m, m ∉ t.pos → h'.fol m = h.fol m) ∧
      (∀ m, h'.greedyOf m = if m ∈ t.firstpos then (h.greedyOf m).map (upd · g)
        else h.greedyOf m) := by
  obtain ⟨h1, a1, a2, a3, a4⟩ := appendFollowAll_spec t.lastpos t.firstpos h
    (fun n hn => ht.wf.tok hf n (lastpos_sub t n hn)) (lastpos_nodup t ht.nodup)
  obtain ⟨h', b1, b2, b3, b4⟩ := setGreedyAll_spec t.firstpos g h1
    (fun n hn => by rw [(a3 n).1]; exact ht.wf.tok hf n (firstpos_sub t n hn))
  have e : ∀ m, h'.tokOf m = h.tokOf m ∧ h'.finOf m = h.finOf m := fun m =>
    ⟨(b3 m).1.trans (a3 m).1, (b3 m).2.1.trans (a3 m).2.2⟩
  refine ⟨h', ?_, ⟨Wf.congr (t := t) ht.wf fun n _ => e n, ht.nodup, ?_⟩, by omega, e, ?_, ?_⟩
  · unfold newIter; rw [a1]; simp only [bind, Except.bind]; rw [b1]; rfl
  · intro n hn
    simp only [pos] at hn
    rw [(b3 n).2.2, a4, Tree.follow, ht.fol n hn]
  · intro m hm
    rw [(b3 m).2.2, a4, if_neg fun h => hm (lastpos_sub t m h), List.append_nil]
  · intro m
    rw [b4, (a3 m).2.1]

end Heap
end Lexertl
