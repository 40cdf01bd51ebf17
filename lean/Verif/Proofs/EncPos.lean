import Verif.Proofs.Enclosed

/-
The positions of rules of the form "opening text, any characters non-greedily,
closing text", read off their trees.
-/
namespace Lexertl
open Spec
namespace Enc

/-- The parts of a sequence tree, however it is bracketed. -/
def items : Tree → List Tree
  | .seq l r => items l ++ items r
  | t => [t]

def nullL (l : List Tree) : Bool := l.all (·.nullable)

def firstL : List Tree → List Nat
  | [] => []
  | t :: ts => t.firstpos ++ (if t.nullable then firstL ts else [])

theorem firstL_append (a b : List Tree) :
    firstL (a ++ b) = firstL a ++ (if nullL a then firstL b else []) := by
  induction a with
  | nil => simp [firstL, nullL]
  | cons t a ih =>
    rw [List.cons_append, firstL, firstL, ih]
    cases h : t.nullable <;> simp [nullL, h]

theorem items_pos (t : Tree) : (items t).flatMap Tree.pos = t.pos := by
  induction t with
  | seq l r ihl ihr => simp [items, Tree.pos, ihl, ihr]
  | _ => simp [items]

theorem items_null (t : Tree) : nullL (items t) = t.nullable := by
  induction t with
  | seq l r ihl ihr => simp [items, nullL, Tree.nullable] at *; rw [ihl, ihr]
  | _ => simp [items, nullL]

theorem items_first (t : Tree) : firstL (items t) = t.firstpos := by
  induction t with
  | seq l r ihl ihr => rw [items, firstL_append, ihl, ihr, items_null]; rfl
  | _ => simp [items, firstL]

theorem split_append {α : Type} {l r A B : List α} {x : α} (h : l ++ r = A ++ x :: B) :
    (∃ B', l = A ++ x :: B' ∧ B = B' ++ r) ∨ ∃ A', r = A' ++ x :: B ∧ A = l ++ A' := by
  rcases List.append_eq_append_iff.1 h with ⟨a, h1, h2⟩ | ⟨a, h1, h2⟩
  · exact .inr ⟨a, h2, h1⟩
  · cases a with
    | nil => exact .inr ⟨[], by simpa using h2.symm, by simpa using h1.symm⟩
    | cons y a =>
      simp at h2
      obtain ⟨rfl, h2⟩ := h2
      exact .inl ⟨a, h1, h2⟩

theorem item_pos {t x : Tree} {A B : List Tree} (h : items t = A ++ x :: B) {n : Nat} (hn : n ∈ x.pos) :
    n ∈ t.pos := by
  rw [← items_pos, h]
  exact List.mem_flatMap.2 ⟨x, by simp, hn⟩

theorem item_last {t x : Tree} : ∀ {A B : List Tree}, items t = A ++ x :: B → t.pos.Nodup →
    ∀ n ∈ x.pos, (n ∈ t.lastpos ↔ n ∈ x.lastpos ∧ nullL B = true) := by
  have base : ∀ {t x : Tree} {A B : List Tree}, [t] = A ++ x :: B →
      ∀ n ∈ x.pos, (n ∈ t.lastpos ↔ n ∈ x.lastpos ∧ nullL B = true) := by
    intro t x A B h n _
    cases A with
    | cons y A => simp at h
    | nil => simp at h; obtain ⟨rfl, rfl⟩ := h; simp [nullL]
  induction t with
  | seq l r ihl ihr =>
    intro A B h hnd n hn
    simp only [Tree.pos, List.nodup_append] at hnd
    rcases split_append h with ⟨B', h1, rfl⟩ | ⟨A', h1, rfl⟩
    · have hl := item_pos h1 hn
      have hr : n ∉ r.pos := fun hr => hnd.2.2 n hl n hr rfl
      have hr' : n ∉ r.lastpos := fun h => hr (r.lastpos_sub n h)
      have := ihl h1 hnd.1 n hn
      have hnull : nullL (B' ++ items r) = (nullL B' && r.nullable) := by
        rw [← items_null r]; simp [nullL]
      rw [Tree.lastpos, hnull]
      cases hh : r.nullable <;> simp [hr', this]
    · have hl := item_pos h1 hn
      have hr : n ∉ l.pos := fun hr => hnd.2.2 n hr n hl rfl
      have hr' : n ∉ l.lastpos := fun h => hr (l.lastpos_sub n h)
      have := ihr h1 hnd.2.1 n hn
      rw [Tree.lastpos]
      cases hh : r.nullable <;> simp [hr', this]
  | _ => intro A B h _ n hn; exact base h n hn

theorem item_follow {t x : Tree} : ∀ {A B : List Tree}, items t = A ++ x :: B → t.pos.Nodup →
    ∀ n ∈ x.pos, t.follow n = x.follow n ++ (if n ∈ x.lastpos then firstL B else []) := by
  have base : ∀ {t x : Tree} {A B : List Tree}, [t] = A ++ x :: B →
      ∀ n ∈ x.pos, t.follow n = x.follow n ++ (if n ∈ x.lastpos then firstL B else []) := by
    intro t x A B h n _
    cases A with
    | cons y A => simp at h
    | nil => simp at h; obtain ⟨rfl, rfl⟩ := h; simp [firstL]
  induction t with
  | seq l r ihl ihr =>
    intro A B h hnd n hn
    simp only [Tree.pos, List.nodup_append] at hnd
    rcases split_append h with ⟨B', h1, rfl⟩ | ⟨A', h1, rfl⟩
    · have hl := item_pos h1 hn
      have hr : n ∉ r.pos := fun hr => hnd.2.2 n hl n hr rfl
      rw [Tree.follow, r.follow_out n hr, ihl h1 hnd.1 n hn, firstL_append, items_first]
      have := item_last h1 hnd.1 n hn
      by_cases h3 : n ∈ x.lastpos
      · by_cases h4 : nullL B' = true
        · rw [if_pos h3, if_pos (this.2 ⟨h3, h4⟩), if_pos h3, if_pos h4]; simp
        · rw [if_pos h3, if_neg (fun h => h4 (this.1 h).2), if_pos h3, if_neg h4]; simp
      · rw [if_neg h3, if_neg (fun h => h3 (this.1 h).1), if_neg h3]; simp
    · have hl := item_pos h1 hn
      have hr : n ∉ l.pos := fun hr => hnd.2.2 n hr n hl rfl
      rw [Tree.follow, l.follow_out n hr, if_neg (fun h => hr (l.lastpos_sub n h)), ihr h1 hnd.2.1 n hn]
      simp
  | _ => intro A B h _ n hn; exact base h n hn

/-- Lists related element by element. -/
def Rel2 {α β : Type} (R : α → β → Prop) : List α → List β → Prop
  | [], [] => True
  | a :: as, b :: bs => R a b ∧ Rel2 R as bs
  | _, _ => False

theorem Rel2.append {α β : Type} {R : α → β → Prop} {b2 : List β} {a2 : List α} : ∀ {a1 : List α}
    {b1 : List β}, Rel2 R a1 b1 → Rel2 R a2 b2 → Rel2 R (a1 ++ a2) (b1 ++ b2)
  | [], [], _, h => h
  | _ :: _, _ :: _, h1, h => ⟨h1.1, Rel2.append h1.2 h⟩
  | [], _ :: _, h, _ => h.elim
  | _ :: _, [], h, _ => h.elim

theorem Rel2.split {α β : Type} {R : α → β → Prop} {x : α} {a2 : List α} : ∀ {a1 : List α}
    {b : List β}, Rel2 R (a1 ++ x :: a2) b → ∃ b1 y b2, b = b1 ++ y :: b2 ∧ Rel2 R a1 b1 ∧ R x y ∧ Rel2 R a2 b2
  | [], y :: b, h => ⟨[], y, b, rfl, trivial, h.1, h.2⟩
  | [], [], h => h.elim
  | _ :: _, [], h => h.elim
  | a :: a1, y :: b, h => by
    obtain ⟨b1, z, b2, h1, h2, h3, h4⟩ := Rel2.split (a1 := a1) h.2
    exact ⟨y :: b1, z, b2, by rw [h1]; rfl, ⟨h.1, h2⟩, h3, h4⟩

theorem Shape.items {cs : CharsetMap} {h : Heap} : ∀ {r : Re} {t : Tree}, Shape cs h r t →
    Rel2 (Shape cs h) r.parts (items t) := by
  intro r
  induction r with
  | seq l r ihl ihr =>
    intro a H
    cases a with
    | seq a b => exact Rel2.append (ihl H.1) (ihr H.2)
    | _ => exact H.elim
  | chars t =>
    intro a H
    cases a with
    | leaf n b => exact ⟨H, trivial⟩
    | _ => exact H.elim
  | star s lz =>
    intro a H
    cases a with
    | iter a g => exact ⟨H, trivial⟩
    | _ => cases lz <;> exact H.elim
  | _ => intro a H; cases a <;> exact H.elim

/-- Position `n` is a leaf for charset `t`. -/
def IsLeaf (cs : CharsetMap) (h : Heap) (g : Greedy) (t : Token) (n : Nat) : Prop :=
  ∃ id, (t, id) ∈ cs ∧ h.tokOf n = some id ∧ h.greedyOf n = some g

theorem leaves {cs : CharsetMap} {h : Heap} : ∀ {us : List Token} {A : List Tree},
    Rel2 (Shape cs h) (us.map .chars) A → ∃ U : List Nat, A = U.map (Tree.leaf · false) ∧ U.length = us.length ∧
      ∀ n ∈ U, ∃ u ∈ us, IsLeaf cs h .yes u n
  | [], [], _ => ⟨[], rfl, rfl, by simp⟩
  | [], _ :: _, H => H.elim
  | _ :: _, [], H => H.elim
  | u :: us, a :: A, H => by
    obtain ⟨U, h1, h2, h3⟩ := leaves (us := us) H.2
    have H1 : SetShape cs h .yes (.chars u) a := H.1
    cases a with
    | leaf n b =>
      obtain ⟨rfl, h4⟩ := H1
      refine ⟨n :: U, by rw [h1]; rfl, by simp [h2], fun k hk => ?_⟩
      rcases List.mem_cons.1 hk with rfl | hk
      · exact ⟨u, by simp, h4⟩
      · obtain ⟨v, h5, h6⟩ := h3 k hk
        exact ⟨v, by simp [h5], h6⟩
    | _ => exact H1.elim

theorem SetShape.leaves {cs : CharsetMap} {h : Heap} {g : Greedy} : ∀ {r : Re} {t : Tree} {ss : List Token},
    SetShape cs h g r t → r.sets = some ss →
    (∀ n ∈ t.pos, ∃ s ∈ ss, IsLeaf cs h g s n) ∧ ∀ s ∈ ss, ∃ n ∈ t.pos, IsLeaf cs h g s n := by
  intro r
  induction r with
  | chars t =>
    intro a ss H hs
    simp only [Re.sets, Option.some.injEq] at hs
    subst hs
    cases a with
    | leaf n b => obtain ⟨_, h1⟩ := H; simpa [Tree.pos, IsLeaf] using h1
    | _ => exact H.elim
  | alt l r ihl ihr =>
    intro a ss H hs
    cases hl : l.sets with
    | none => simp [Re.sets, hl] at hs
    | some sl =>
      cases hr : r.sets with
      | none => simp [Re.sets, hl, hr] at hs
      | some sr =>
        simp only [Re.sets, hl, hr, Option.some.injEq] at hs
        subst hs
        cases a with
        | sel a b =>
          obtain ⟨a1, a2⟩ := ihl H.1 hl
          obtain ⟨b1, b2⟩ := ihr H.2 hr
          simp only [Tree.pos, List.mem_append]
          refine ⟨fun n hn => ?_, fun s hs => ?_⟩
          · rcases hn with hn | hn
            · obtain ⟨s, h1, h2⟩ := a1 n hn; exact ⟨s, .inl h1, h2⟩
            · obtain ⟨s, h1, h2⟩ := b1 n hn; exact ⟨s, .inr h1, h2⟩
          · rcases hs with hs | hs
            · obtain ⟨n, h1, h2⟩ := a2 s hs; exact ⟨n, .inl h1, h2⟩
            · obtain ⟨n, h1, h2⟩ := b2 s hs; exact ⟨n, .inr h1, h2⟩
        | _ => exact H.elim
  | _ => intro a ss H; exact H.elim

/-- The positions of the tree of an enclosed rule. -/
structure Parts (cs : CharsetMap) (h : Heap) (t : Tree × Nat) (U S V : List Nat) (x0 : Nat) : Prop where
  pos : t.1.pos = U ++ S ++ V ++ [t.2]
  une : U ≠ []
  sne : S ≠ []
  hx0 : (V ++ [t.2])[0]? = some x0
  first : ∃ n ∈ U, t.1.firstpos = [n]
  folU : ∀ (i n : Nat), U[i]? = some n → (∃ m ∈ U, t.1.follow n = [m]) ∨ t.1.follow n = S ++ [x0]
  folS : ∀ s ∈ S, t.1.follow s = S ++ [x0]
  folV : ∀ (i n : Nat), V[i]? = some n → ∃ m, (V ++ [t.2])[i + 1]? = some m ∧ t.1.follow n = [m]
  folF : t.1.follow t.2 = []
  leafS : ∀ n ∈ S, ∃ s, IsLeaf cs h .no s n
  leafV : ∀ n ∈ V, ∃ v, IsLeaf cs h .yes v n ∧
    ((∀ c, Mem c v → ∃ k ∈ S, ∃ s, IsLeaf cs h .no s k ∧ Mem c s) ∨
     (∀ c, Mem c v → ∀ k ∈ S, ∀ s id, (s, id) ∈ cs → h.tokOf k = some id → ¬ Mem c s))

theorem firstL_leaves (V : List Nat) (f x0 : Nat) (h : (V ++ [f])[0]? = some x0) :
    firstL (V.map (Tree.leaf · false) ++ [.fin f]) = [x0] := by
  cases V with
  | nil => simp at h; subst h; simp [firstL, Tree.firstpos]
  | cons v V => simp at h; subst h; simp [firstL, Tree.firstpos, Tree.nullable]

theorem map_split {U : List Nat} {i n : Nat} (h : U[i]? = some n) (F : Nat → Tree) :
    U.map F = (U.take i).map F ++ F n :: (U.drop (i + 1)).map F := by
  obtain ⟨hi, rfl⟩ := List.getElem?_eq_some_iff.1 h
  rw [← List.map_cons, ← List.map_append, ← List.drop_eq_getElem_cons hi, List.take_append_drop]

theorem EncTree.parts {cs : CharsetMap} {h : Heap} {r : Re} {t : Tree × Nat} (H : EncTree cs h r t)
    (hr : Enclosed r) (hnd : t.1.pos.Nodup) (hid : ∀ a ∈ cs, ∀ b ∈ cs, a.2 = b.2 → a.1 = b.1) :
    ∃ U S V x0, Parts cs h t U S V x0 := by
  obtain ⟨body, h1, h2⟩ := H
  obtain ⟨us, vs, ss, s, hus, hvs, hss, hp, hd⟩ := hr
  obtain ⟨t, f⟩ := t
  simp only at h1 hnd
  have h3 := h2.items
  rw [hp] at h3
  obtain ⟨A, y, B, i1, i2, i3, i4⟩ := Rel2.split h3
  obtain ⟨U, rfl, u2, u3⟩ := leaves i2
  obtain ⟨V, rfl, v2, v3⟩ := leaves i4
  cases y with
  | iter a g =>
    have i3 : SetShape cs h .no s a := i3
    obtain ⟨f1, f2, f3, f4, f5⟩ := i3.first
    obtain ⟨l1, l2⟩ := i3.leaves hss
    have hit : items t = U.map (Tree.leaf · false) ++ .iter a g :: (V.map (Tree.leaf · false) ++ [.fin f]) := by
      rw [h1, items, i1]
      simp [items]
    have hune : U ≠ [] := by
      intro h; subst h; simp at u2; exact hus (List.eq_nil_of_length_eq_zero u2.symm)
    obtain ⟨x0, hx0⟩ : ∃ x0, (V ++ [f])[0]? = some x0 := by cases V <;> simp
    have hfl := firstL_leaves V f x0 hx0
    have hflI : firstL (.iter a g :: (V.map (Tree.leaf · false) ++ [.fin f])) = a.pos ++ [x0] := by
      rw [firstL, hfl]; simp [Tree.firstpos, Tree.nullable, f1]
    have hleafpos : ∀ l : List Nat, (l.map (Tree.leaf · false)).flatMap Tree.pos = l := by
      intro l; induction l with
      | nil => rfl
      | cons a l ih => rw [List.map_cons, List.flatMap_cons, ih]; rfl
    refine ⟨U, a.pos, V, x0, ?_, hune, f5, hx0, ?_, ?_, ?_, ?_, ?_, ?_, ?_⟩
    · show t.pos = _
      rw [← items_pos, hit, List.flatMap_append, List.flatMap_cons, List.flatMap_append, hleafpos, hleafpos]
      simp [Tree.pos]
    · show ∃ n ∈ U, t.firstpos = [n]
      rw [← items_first, hit]
      cases U with
      | nil => exact absurd rfl hune
      | cons n U => exact ⟨n, by simp, by simp [firstL, Tree.firstpos, Tree.nullable]⟩
    · intro i n hi
      show (∃ m ∈ U, t.follow n = [m]) ∨ t.follow n = _
      have hit' := hit
      rw [map_split hi, List.append_assoc, List.cons_append] at hit'
      have := item_follow hit' hnd n (by simp [Tree.pos])
      rw [this]
      simp only [Tree.follow, Tree.lastpos, Bool.false_eq_true, if_false, List.mem_singleton, if_true,
        List.nil_append]
      cases hdr : U.drop (i + 1) with
      | nil => right; rw [List.map_nil, List.nil_append, hflI]
      | cons m l =>
        left
        refine ⟨m, List.mem_of_mem_drop (i := i + 1) (by rw [hdr]; simp), ?_⟩
        simp [firstL, Tree.firstpos, Tree.nullable]
    · intro n hn
      show t.follow n = _
      have := item_follow hit hnd n (by simpa [Tree.pos] using hn)
      rw [this, hfl]
      simp [Tree.follow, Tree.lastpos, f1, f2, f4, hn]
    · intro i n hi
      show ∃ m, (V ++ [f])[i + 1]? = some m ∧ t.follow n = [m]
      have hit' := hit
      rw [map_split (U := V) hi] at hit'
      have hit'' : items t = (U.map (Tree.leaf · false) ++ .iter a g :: (V.take i).map (Tree.leaf · false)) ++
          .leaf n false :: ((V.drop (i + 1)).map (Tree.leaf · false) ++ [.fin f]) := by
        rw [hit']; simp
      have := item_follow hit'' hnd n (by simp [Tree.pos])
      rw [this]
      simp only [Tree.follow, Tree.lastpos, Bool.false_eq_true, if_false, List.mem_singleton, if_true,
        List.nil_append]
      have hlt := (List.getElem?_eq_some_iff.1 hi).1
      have hdr : (V ++ [f])[i + 1]? = (V.drop (i + 1) ++ [f])[0]? := by
        rw [← List.drop_append_of_le_length (by omega), List.getElem?_drop]
      rw [hdr]
      obtain ⟨m, hm⟩ : ∃ m, (V.drop (i + 1) ++ [f])[0]? = some m := by
        cases V.drop (i + 1) <;> simp
      exact ⟨m, hm, firstL_leaves _ _ _ hm⟩
    · show t.follow f = []
      have hit'' : items t = (U.map (Tree.leaf · false) ++ .iter a g :: V.map (Tree.leaf · false)) ++
          .fin f :: [] := by rw [hit]; simp
      rw [item_follow hit'' hnd f (by simp [Tree.pos])]
      simp [Tree.follow, firstL]
    · intro n hn
      obtain ⟨s, _, h5⟩ := l1 n hn
      exact ⟨s, h5⟩
    · intro n hn
      obtain ⟨v, hv, h5⟩ := v3 n hn
      refine ⟨v, h5, ?_⟩
      rcases hd v hv with h6 | h6
      · left
        intro c hc
        obtain ⟨s, s1, s2⟩ := h6 c hc
        obtain ⟨k, k1, k2⟩ := l2 s s1
        exact ⟨k, k1, s, k2, s2⟩
      · right
        intro c hc k hk s' id hs' ht hm
        obtain ⟨s, s1, id', s2, s3, _⟩ := l1 k hk
        rw [ht] at s3
        cases s3
        have := hid _ hs' _ s2 rfl
        simp only at this
        subst this
        exact h6 c hc _ s1 hm
  | _ => exact i3.elim

section
variable {E : DfaEnv} {m : CharsetMap} {ts : List (Tree × Nat)} {d : Nat → NodeData}
  {K : Nat → List Sym → Prop} {ncls : Nat} {cls : Nat → Nat → Prop}

theorem idx_leaf (B : Bundle E.tr m E.heap ts d K) (C : ClsOk m E.mapping ncls cls) {n id : Nat} {t : Token}
    (h1 : (t, id) ∈ m) (h2 : E.heap.tokOf n = some id) (x : Nat) :
    x ∈ idxOf E.tr E.mapping E.heap n ↔ ∃ c, Mem c t ∧ cls x c := by
  have hb : E.tr.bolToken = E.tr.npos - 1 := rfl
  have he : E.tr.eolToken = E.tr.npos - 2 := rfl
  have h0 : E.tr.nullToken = E.tr.npos := rfl
  have hsm := B.ids.small _ h1
  simp only at hsm
  obtain ⟨s, s1, s2, s3, s4⟩ := C.map _ h1
  unfold idxOf
  rw [h2]
  simp only
  rw [if_neg (by omega), if_neg (by omega), s1]
  simp only [Option.getD_some]
  constructor
  · intro h
    obtain ⟨c, hc⟩ := C.ne x (s3 x h)
    exact ⟨c, (s4 c).2 ⟨x, h, hc⟩, hc⟩
  · rintro ⟨c, hc, hx⟩
    obtain ⟨i, hi, hi'⟩ := (s4 c).1 hc
    rw [C.disj x i c hx hi']
    exact hi

theorem grd_of {h : Heap} {n : Nat} {g : Greedy} (H : h.greedyOf n = some g) : h.grd n = g := by
  unfold Heap.grd; rw [H]; rfl

/-- The positions of an enclosed rule among those of all rules. -/
theorem Parts.pos' (B : Bundle E.tr m E.heap ts d K) (C : ClsOk m E.mapping ncls cls) {j : Nat} {t : Tree × Nat}
    (ht : ts[j]? = some t) {U S V : List Nat} {x0 : Nat} (H : Parts m E.heap t U S V x0) :
    Pos E (fun n => ∃ j, Rk ts n j) (fun n => decide (n ∈ t.1.pos)) U S V t.2 x0 := by
  obtain ⟨b, e₀, R⟩ := B.tree j t ht
  have hin : ∀ n, n ∈ U ++ S ++ V ++ [t.2] → E.heap.fol n = t.1.follow n := by
    intro n hn
    rw [← H.pos] at hn
    exact R.lay.fol n hn
  refine ⟨by rw [← H.pos]; exact R.lay.nodup, fun n => by rw [decide_eq_true_iff, H.pos], H.une, H.sne, H.hx0,
    ?_, ?_, ?_, ?_, ?_, ?_, ?_, ?_, ?_⟩
  · intro i n hi
    rw [hin n (by have := List.mem_of_getElem? hi; simp [this])]
    exact H.folU i n hi
  · intro n hn; rw [hin n (by simp [hn])]; exact H.folS n hn
  · intro i n hi
    rw [hin n (by have := List.mem_of_getElem? hi; simp [this])]
    exact H.folV i n hi
  · rw [hin t.2 (by simp)]; exact H.folF
  · rintro n ⟨i, hi⟩ hn q hq
    have hqi := B.rk_fol hi hq
    refine decide_eq_false fun hqt => ?_
    have hij : i = j := by
      obtain ⟨s, hs, qs⟩ := hqi
      have hs' := List.getElem?_eq_some_iff.1 hs
      have ht' := List.getElem?_eq_some_iff.1 ht
      have := List.pairwise_iff_getElem.1 B.sep
      rcases Nat.lt_trichotomy i j with hlt | h | hlt
      · have := this i j hs'.1 ht'.1 hlt q (by rw [hs'.2]; exact s.1.act_sub q qs) q (by rw [ht'.2]; exact hqt)
        omega
      · exact h
      · have := this j i ht'.1 hs'.1 hlt q (by rw [ht'.2]; exact hqt) q (by rw [hs'.2]; exact s.1.act_sub q qs)
        omega
    subst hij
    obtain ⟨s, hs, ns⟩ := hi
    rw [ht] at hs
    cases hs
    exact of_decide_eq_false hn (t.1.act_sub n ns)
  · unfold idxOf
    rw [Heap.tok_of_fin R.fin]
  · intro n hn
    obtain ⟨v, ⟨id, h1, h2, _⟩, h3⟩ := H.leafV n hn
    rcases h3 with h3 | h3
    · left
      intro x hx
      obtain ⟨c, hc, hx⟩ := (idx_leaf B C h1 h2 x).1 hx
      obtain ⟨k, hk, s, ⟨id', k1, k2, _⟩, k3⟩ := h3 c hc
      exact ⟨k, hk, (idx_leaf B C k1 k2 x).2 ⟨c, k3, hx⟩⟩
    · right
      intro x hx k hk hxk
      obtain ⟨s, id', k1, k2, _⟩ := H.leafS k hk
      obtain ⟨c, hc, hx⟩ := (idx_leaf B C h1 h2 x).1 hx
      obtain ⟨c', hc', hx'⟩ := (idx_leaf B C k1 k2 x).1 hxk
      -- both characters are in class `x`, which a charset contains or not
      have : Mem c s := by
        obtain ⟨z, z1, z2, z3, z4⟩ := C.map _ k1
        obtain ⟨i, hi, hi'⟩ := (z4 c').1 hc'
        rw [C.disj i x c' hi' hx'] at hi
        exact (z4 c).2 ⟨x, hi, hx⟩
      exact h3 c hc k hk s id' k1 k2 this
  · intro n hn
    obtain ⟨s, id, _, _, h3⟩ := H.leafS n hn
    exact grd_of h3
  · intro n hn
    obtain ⟨s, ⟨id, _, _, h3⟩, _⟩ := H.leafV n hn
    rw [grd_of h3]; simp

/-- Where an enclosed rule ends and no other rule is under way, the table has no
transitions. -/
theorem cut (B : Bundle E.tr m E.heap ts d K) (C : ClsOk m E.mapping ncls cls)
    (hsize : ncls + 7 ≤ E.size) (hnpos : E.size ≤ E.tr.npos)
    (hE : EolOk E m ts ncls) (hne : starts ts ≠ []) (used0 : List Nat) (lk : List Nat)
    (hlk : ∀ c, c < 256 → (∃ i, lk[c]? = some (7 + i) ∧ cls i c) ∨
      (lk[c]? = some 6 ∧ ∀ e ∈ m, ¬ Mem c e.1))
    {D0 D : DState} (a1 : closure E ⟨[List.replicate E.size 0], [], [], used0, []⟩ (starts ts) = .ok (some 1, D0))
    (a2 : buildStates E (2 ^ E.heap.length + 1) 0 D0 = .ok D)
    {j : Nat} {t : Tree × Nat} (ht : ts[j]? = some t) {U S V : List Nat} {x0 : Nat}
    (H : Parts m E.heap t U S V x0) (hl : LazyInfo (d j)) (r : Nat) (u : List Sym)
    (hr : r ≠ 0) (hat : ∃ v, D.seen[r - 1]? = some v ∧
        ∀ q, q ∈ v ↔ Tree.after E.heap.fol (Reads (tokReads E.tr m) E.heap) (starts ts) u q)
    (hk : K j u) (ho : ∀ i w, i < ts.length → i ≠ j → ¬ K i (u ++ w)) :
    (∀ c, c < 256 → LuState.step ⟨lk, D.rows⟩ r c = .ok 0) ∧ getCell D.rows r ixEol = .ok 0 := by
  have hP := H.pos' B C ht
  have hn : ncls + 7 ≤ E.tr.npos := by omega
  have hmem0 : ∀ q, q ∈ dedup [] (starts ts) ↔ q ∈ starts ts := fun q => by rw [mem_dedup]; simp
  have H0 := B.envOk C hsize hnpos hE
  have H1 : EnvOk E ncls id (fun v => MQ E.tr m E.heap ts v ∧
      Inv E (fun n => decide (n ∈ t.1.pos)) U S V t.2 v) :=
    ⟨H0.size, H0.npos, fun v hv => H0.node v hv.1, fun v x hv => H0.prune v x hv.1, H0.prnil,
      fun v x hv hx => ⟨H0.next v x hv.1 hx, hP.step v x hv.1.rk hv.2⟩,
      fun v x hv => H0.nextOk v x hv.1, fun a b ha hb => H0.det a b ha.1 hb.1⟩
  have hq0 : MQ E.tr m E.heap ts (dedup [] (starts ts)) := by
    refine ⟨?_, ?_, ⟨[], hmem0⟩, .inr hmem0⟩
    · intro n hn; exact Bundle.rk_starts ((hmem0 n).1 hn)
    · obtain ⟨y, h1, h2⟩ := dedup_sublist (starts ts) []
      rw [h1, List.nil_append]
      exact B.starts_le.sublist h2
  have hi0 : Inv E (fun n => decide (n ∈ t.1.pos)) U S V t.2 (dedup [] (starts ts)) := by
    refine ⟨(nodup_dedup _ _ (by simp)).filter _, .inl ?_⟩
    obtain ⟨n, hn, hf⟩ := H.first
    refine ⟨n, hn, ?_⟩
    rw [dedup_filter, List.filter_nil]
    have hsp : (starts ts).filter (fun n => decide (n ∈ t.1.pos)) = t.1.firstpos := by
      have hout : ∀ (l : List (Tree × Nat)), (∀ s ∈ l, ∀ a ∈ s.1.pos, a ∉ t.1.pos) →
          (starts l).filter (fun n => decide (n ∈ t.1.pos)) = [] := by
        intro l hl
        apply List.filter_eq_nil_iff.2
        intro a ha
        obtain ⟨s, hs, hq⟩ := List.mem_flatMap.1 ha
        simpa using hl s hs a (s.1.firstpos_sub a hq)
      have ht' := List.getElem?_eq_some_iff.1 ht
      have hsplit : ts = ts.take j ++ t :: ts.drop (j + 1) := by
        rw [← ht'.2, ← List.drop_eq_getElem_cons ht'.1, List.take_append_drop]
      have hsep := B.sep
      rw [hsplit, List.pairwise_append, List.pairwise_cons] at hsep
      obtain ⟨_, ⟨s1, _⟩, s2⟩ := hsep
      have hstarts : starts ts = starts (ts.take j) ++ (t.1.firstpos ++ starts (ts.drop (j + 1))) := by
        conv => lhs; rw [hsplit]
        simp [starts]
      rw [hstarts, List.filter_append, List.filter_append, hout _ (fun s hs a ha hat => by
          have := s2 s hs t (by simp) a ha a hat; omega), hout _ (fun s hs a ha hat => by
          have := s1 s hs a hat a ha; omega)]
      simp only [List.nil_append, List.append_nil]
      exact List.filter_eq_self.2 fun a ha => by simpa using t.1.firstpos_sub a ha
    rw [hsp, hf]; simp [dedup]
  obtain ⟨D0', D', b1, b2, b3, b4, b5⟩ := buildStates_init H1 used0 (starts ts) hne ⟨hq0, hi0⟩
    (fun n hn => by obtain ⟨j, hj⟩ := Bundle.rk_starts hn; exact (B.nodeOk C hj).1)
  rw [a1] at b1
  cases b1
  rw [a2] at b2
  cases b2
  obtain ⟨v, hv, hu⟩ := hat
  obtain ⟨⟨hmq, hinv⟩, _, _⟩ := b3.q v (List.mem_of_getElem? hv)
  have hw : ∀ (j : Nat) (t : Tree × Nat), ts[j]? = some t → (t.2 ∈ v ↔ K j u) := fun j t ht => by
    rw [hu, B.words ht]
  have hall : ∀ n ∈ v, decide (n ∈ t.1.pos) = true := by
    intro n hnv
    obtain ⟨i, s, hs, hns⟩ := hmq.rk n hnv
    obtain ⟨b, e₀, R⟩ := B.tree i s hs
    have hij : i = j := by
      apply Classical.byContradiction
      intro hij
      obtain ⟨w, hw'⟩ := R.complete hns
      refine ho i w (List.getElem?_eq_some_iff.1 hs).1 hij ?_
      rw [← B.words hs]
      exact Tree.after_trans w hw' u _ ((hu n).1 hnv)
    subst hij
    rw [ht] at hs
    cases hs
    simpa using t.1.act_sub n hns
  have hfv : t.2 ∈ v := (hw j t ht).2 hk
  have hend : firstEnd E.heap v = .ok (some (d j)) := by
    rcases B.firstEnd_eq v hmq.rk hmq.ord with ⟨_, c2⟩ | ⟨i, s, c1, c2, c3, _⟩
    · exact absurd hfv (c2 j t ht)
    · have hij : i = j := by
        apply Classical.byContradiction
        intro hij
        refine ho i [] (List.getElem?_eq_some_iff.1 c1).1 hij ?_
        rw [List.append_nil]
        exact (hw i s c1).1 c2
      rw [c3, hij]
  have hzero : ∀ x, Valid E.tr ncls x → x ≠ E.tr.bolToken → slotVal E.tr D.rows (r - 1) x = 0 := by
    intro x hx hb
    rcases b4.cells (r - 1) v x (List.getElem?_eq_some_iff.1 hv).1 hv hx hb with ⟨_, h⟩ | ⟨h, k, s, _, _, h5⟩
    · exact h
    · rcases h5 with ⟨_, h5⟩ | ⟨h5, _⟩
      · exact h5
      · exfalso
        rcases hP.dead v x hinv hall hfv with h6 | h6
        · exact h h6
        · obtain ⟨a, b, c, e, f, g, he⟩ := hl
          exact h5 ⟨⟨a, b, c, e, f, g, by rw [hend, he]⟩, h6⟩
  have hlt := (List.getElem?_eq_some_iff.1 hv).1
  have hget : ∀ c, c < E.size → getCell D.rows r c = .ok (cellOf D.rows r c) := fun c hc =>
    getCell_spec b3.width (by rw [b3.len]; omega) hc
  constructor
  · intro c hc
    unfold LuState.step
    rcases hlk c hc with ⟨i, h1, h2⟩ | ⟨h1, h2⟩
    · have hi := C.lt i c h2
      simp only [h1]
      rw [hget _ (by omega)]
      have := hzero i (.inl hi) (by show i ≠ E.tr.npos - 1; omega)
      unfold slotVal slot at this
      rw [if_neg (by show i ≠ E.tr.npos - 1; omega), if_neg (by show i ≠ E.tr.npos - 2; omega)] at this
      simp only [ixTransitions] at this
      rw [show r - 1 + 1 = r from by omega, Nat.add_comm] at this
      rw [this]
    · simp only [h1]
      rw [hget 6 (by omega), b3.zero r 6 (.inl rfl)]
  · rw [hget ixEol (by unfold ixEol; omega)]
    have := hzero E.tr.eolToken (.inr (.inr rfl)) (by show E.tr.npos - 2 ≠ E.tr.npos - 1; omega)
    unfold slotVal slot at this
    rw [if_neg (by show E.tr.npos - 2 ≠ E.tr.npos - 1; omega), if_pos rfl,
      show r - 1 + 1 = r from by omega] at this
    rw [this]

end

end Enc
end Lexertl
