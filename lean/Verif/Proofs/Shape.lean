import Verif.Proofs.Act
import Verif.Proofs.Equiv
import Verif.Spec.Tree
import Verif.Proofs.Whole

/-
Bridges from the internal notions to those of `Verif.Spec.Tree` and
`Verif.Spec.Syntax`.
-/
namespace Lexertl
open Spec

theorem nodes_pos (t : Tree) : nodes t = t.pos := by
  induction t <;> simp_all [nodes, Tree.pos]

/-- A tree without end nodes whose leaves are leaves of the store has a shape. -/
theorem shape_some {nt : Nat} {h : Heap} {t : Tree} (hw : t.Wf nt h) (hf : t.noFin = true) :
    ∃ s, shape h t = some s := by
  induction t with
  | leaf n a =>
    obtain ⟨tk, h1, _⟩ := hw
    exact ⟨_, by unfold shape; rw [Heap.cell_leaf h1]⟩
  | fin n => cases hf
  | seq l r ihl ihr =>
    simp only [Tree.noFin, Bool.and_eq_true] at hf
    obtain ⟨a, ha⟩ := ihl hw.1 hf.1
    obtain ⟨b, hb⟩ := ihr hw.2 hf.2
    exact ⟨_, by simp only [shape, ha, hb]; rfl⟩
  | sel l r ihl ihr =>
    simp only [Tree.noFin, Bool.and_eq_true] at hf
    obtain ⟨a, ha⟩ := ihl hw.1 hf.1
    obtain ⟨b, hb⟩ := ihr hw.2 hf.2
    exact ⟨_, by simp only [shape, ha, hb]; rfl⟩
  | iter t g ih =>
    obtain ⟨a, ha⟩ := ih hw hf
    exact ⟨_, by simp only [shape, ha]; rfl⟩

theorem shape_leaf {h : Heap} {n tk : Nat} {a : Bool} (h1 : h.tokOf n = some tk) :
    shape h (.leaf n a) = some (.leaf tk (h.grd n)) := by
  unfold shape; rw [Heap.cell_leaf h1]

theorem sameShape_shape {nt : Nat} {h h' : Heap} {t : Tree} : ∀ {t' : Tree}, Tree.SameShape h h' t t' →
    t.Wf nt h → shape h' t' = shape h t := by
  induction t with
  | leaf n a =>
    intro t' H hw
    cases t' <;> try exact H.elim
    obtain ⟨_, h2, h3⟩ := H
    obtain ⟨tk, h1, _⟩ := hw
    rw [shape_leaf h1, shape_leaf (h2.symm.trans h1)]
    unfold Heap.grd
    rw [h3]
  | fin n => intro t' H; cases t' <;> exact H.elim
  | seq l r ihl ihr =>
    intro t' H hw
    cases t' <;> try exact H.elim
    simp only [shape, ihl H.1 hw.1, ihr H.2 hw.2]
  | sel l r ihl ihr =>
    intro t' H hw
    cases t' <;> try exact H.elim
    simp only [shape, ihl H.1 hw.1, ihr H.2 hw.2]
  | iter t g ih =>
    intro t' H hw
    cases t' <;> try exact H.elim
    simp only [shape, ih H.2 hw, H.1]

/-- The copy of a tree the parser has built. -/
theorem copy_shape {nt : Nat} {h0 h : Heap} {t : Tree} (F : Fresh nt h0 h t) :
    ∃ s e t', shape h t = some s ∧ h.copy nt t = .ok (h ++ e, t') ∧ shape (h ++ e) t' = some s ∧
      shape (h ++ e) t = some s ∧ (nodes t').Nodup ∧ (∀ n ∈ nodes t', h.length ≤ n) ∧
      ∀ n ∈ nodes t, n < h.length := by
  obtain ⟨s, hs⟩ := shape_some F.lay.wf F.noFin
  obtain ⟨e, t', h1, h2, h3, h4⟩ := Heap.copy_spec nt h t F.lay.wf F.noFin F.greedy
  have hext : ∀ u : Tree, (∀ n ∈ nodes u, n < h.length) → shape (h ++ e) u = shape h u := by
    intro u
    induction u with
    | leaf n a =>
      intro hn
      have := hn n (by simp [nodes])
      unfold shape
      rw [List.getElem?_append_left this]
    | fin n => intro _; rfl
    | seq l r ihl ihr =>
      intro hn
      simp only [shape, ihl fun n h => hn n (by simp [nodes, h]), ihr fun n h => hn n (by simp [nodes, h])]
    | sel l r ihl ihr =>
      intro hn
      simp only [shape, ihl fun n h => hn n (by simp [nodes, h]), ihr fun n h => hn n (by simp [nodes, h])]
    | iter t g ih =>
      intro hn
      simp only [shape, ih hn]
  have hlt : ∀ n ∈ nodes t, n < h.length := by rw [nodes_pos]; exact F.lt
  refine ⟨s, e, t', hs, h1, (sameShape_shape h2 F.lay.wf).trans hs, (hext t hlt).trans hs, ?_, ?_, hlt⟩
  · rw [nodes_pos]; exact h3.nodup
  · rw [nodes_pos]; exact h4

/-- Greedy postfix operators and numbers of repetitions. -/
theorem postfix_reps {d : Tok} {r q : Re} (h : Postfix d r q) (hq : q.greedy = true) (w : List Sym) :
    q.Matches w ↔ ∃ k, Reps d k ∧ Pow r.Matches k w := by
  cases h with
  | opt e s =>
    constructor
    · rintro (rfl | h)
      · exact ⟨0, .opt _ _ _ (by omega), rfl⟩
      · exact ⟨1, .opt _ _ _ (by omega), w, [], by simp, h, rfl⟩
    · rintro ⟨k, hk, h⟩
      cases hk with
      | opt _ _ k hk =>
        match k, hk, h with
        | 0, _, h => exact .inl h
        | 1, _, ⟨u, v, h1, h2, h3⟩ =>
          cases h3
          rw [List.append_nil] at h1
          subst h1
          exact .inr h2
        | k + 2, hk, _ => omega
  | aopt e s => cases hq
  | star e s =>
    constructor
    · rintro ⟨k, h⟩; exact ⟨k, .star _ _ _, h⟩
    · rintro ⟨k, _, h⟩; exact ⟨k, h⟩
  | astar e s => cases hq
  | plus e s =>
    constructor
    · rintro ⟨k, hk, h⟩; exact ⟨k, .plus _ _ _ hk, h⟩
    · rintro ⟨k, hk, h⟩
      cases hk with
      | plus _ _ k hk => exact ⟨k, hk, h⟩
  | aplus e s => cases hq
  | rep e s _ lo hi hc =>
    constructor
    · rintro ⟨k, h1, h2, h⟩; exact ⟨k, .rep _ _ _ _ _ hc h1 h2, h⟩
    · rintro ⟨k, hk, h⟩
      cases hk with
      | rep _ _ lo' hi' k hc' h1 h2 =>
        obtain ⟨rfl, rfl⟩ := count_unique hc hc'
        exact ⟨k, h1, h2, h⟩
  | arep e s => cases hq

/-! ### Transition sets -/

theorem mem_idxOf {tr : Traits} {sm : List (List Nat)} {h : Heap} {n x : Nat} :
    x ∈ idxOf tr sm h n ↔ AcceptsIdx tr sm h n x := by
  unfold idxOf AcceptsIdx
  cases htk : h.tokOf n with
  | none =>
    simp only [List.not_mem_nil, false_iff]
    rintro ⟨tk, g, fol, h1, _⟩
    unfold Heap.tokOf at htk
    rw [h1] at htk
    cases htk
  | some tk =>
    have hc := Heap.cell_leaf htk
    simp only
    constructor
    · intro hx
      split at hx
      · cases hx
      · rename_i h0
        refine ⟨tk, _, _, hc, h0, ?_⟩
        split at hx
        · rename_i hb
          exact .inl ⟨hb, by simpa using hx⟩
        · rename_i hb
          right
          refine ⟨fun h => hb (.inl h), fun h => hb (.inr h), ?_⟩
          cases hs : sm[tk]? with
          | none => rw [hs] at hx; cases hx
          | some s => rw [hs] at hx; exact ⟨s, rfl, hx⟩
    · rintro ⟨tk', g, fol, h1, h2, h3⟩
      rw [hc] at h1
      simp only [Option.some.injEq, Cell.mk.injEq, NodeData.leaf.injEq] at h1
      obtain ⟨⟨rfl, _⟩, _⟩ := h1
      rw [if_neg h2]
      rcases h3 with ⟨hb, rfl⟩ | ⟨hb, he, s, hs, hx⟩
      · simp [hb]
      · simp [hb, he, hs, hx]

theorem mem_fol {h : Heap} {n q : Nat} : q ∈ h.fol n ↔ Follows h n q := by
  unfold Heap.fol Follows
  cases h[n]? <;> simp

theorem firsts_mem (l : List Nat) (q : Nat) : q ∈ firsts l ↔ q ∈ l := by
  have := Equivset.mem_mergeFollow [] l q
  simp only [Equivset.mergeFollow, List.not_mem_nil, false_or] at this
  exact this

theorem firsts_snoc (l : List Nat) (q : Nat) :
    firsts (if q ∈ l then l else l ++ [q]) = if q ∈ firsts l then firsts l else firsts l ++ [q] := by
  by_cases h : q ∈ l
  · rw [if_pos h, if_pos ((firsts_mem l q).2 h)]
  · rw [if_neg h]
    simp only [firsts, List.foldl_append, List.foldl_cons, List.foldl_nil]
    rfl

theorem firsts_merge (m : List Nat) : ∀ l, firsts (Equivset.mergeFollow l m) = firsts (l ++ m) := by
  induction m with
  | nil => intro l; simp [Equivset.mergeFollow]
  | cons q m ih =>
    intro l
    have h1 : Equivset.mergeFollow l (q :: m) = Equivset.mergeFollow (if q ∈ l then l else l ++ [q]) m := rfl
    rw [h1, ih]
    have h2 : ∀ a b, firsts (a ++ b) = b.foldl (fun acc q => if q ∈ acc then acc else acc ++ [q]) (firsts a) := by
      intro a b; simp only [firsts, List.foldl_append]
    rw [h2, h2, firsts_snoc]
    rfl

theorem firsts_append_congr {a b : List Nat} (h : firsts a = firsts b) (c : List Nat) :
    firsts (a ++ c) = firsts (b ++ c) := by
  simp only [firsts, List.foldl_append] at h ⊢
  rw [h]

theorem firsts_follAll (h : Heap) (ns : List Nat) : firsts (follAll h ns) = firsts (ns.flatMap h.fol) := by
  cases ns with
  | nil => rfl
  | cons n ns =>
    rw [follAll, List.flatMap_cons]
    have : ∀ (ns : List Nat) (acc : List Nat),
        firsts (ns.foldl (fun acc m => Equivset.mergeFollow acc (h.fol m)) acc) = firsts (acc ++ ns.flatMap h.fol) := by
      intro ns
      induction ns with
      | nil => intro acc; simp
      | cons a ns ih =>
        intro acc
        rw [List.foldl_cons, ih, firsts_append_congr (firsts_merge _ _), List.flatMap_cons, List.append_assoc]
    exact this ns _

end Lexertl

namespace Lexertl
open Spec

theorem denotes_unique {ts : List Tok} {e e' : Option Re} (h : Denotes ts e) (h' : Denotes ts e') : e = e' := by
  cases h with
  | empty b t hb ht =>
    generalize hg : [b, t] = us at h'
    cases h' with
    | empty => rfl
    | re b' t' ts r _ _ hd =>
      have h1 := congrArg List.length hg
      have h2 := List.length_pos_iff.2 (derives_nonempty hd)
      simp only [List.length_cons, List.length_append, List.length_nil] at h1
      omega
  | re b t ts r hb ht hd =>
    generalize hg : b :: ts ++ [t] = us at h'
    cases h' with
    | empty b' t' =>
      have h1 := congrArg List.length hg
      have h2 := List.length_pos_iff.2 (derives_nonempty hd)
      simp only [List.length_cons, List.length_append, List.length_nil] at h1
      omega
    | re b' t' ts' r' _ _ hd' =>
      simp only [List.cons_append, List.cons.injEq] at hg
      have := (List.append_inj' hg.2 rfl).1
      subst this
      rw [derives_unique hd hd']

end Lexertl
