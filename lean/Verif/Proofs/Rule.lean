import Verif.Proofs.Act
import Verif.Proofs.Equiv

/-
The syntax tree of one rule: body, end node and the `^` fix-up.
-/
namespace Lexertl
open Spec

namespace Tree
variable {σ : Type}

/-- Positions available after reading a word, starting from `S`. -/
def after (F : Nat → List Nat) (A : Nat → σ → Prop) : List Nat → List σ → Nat → Prop
  | S, [], q => q ∈ S
  | S, s :: w, q => ∃ p ∈ S, A p s ∧ after F A (F p) w q

variable {F : Nat → List Nat} {A : Nat → σ → Prop}

theorem run_snoc (u : List σ) : ∀ (S : List Nat) (s : σ) (q : Nat),
    Run F A S (u ++ [s]) q ↔ after F A S u q ∧ A q s := by
  induction u with
  | nil =>
    intro S s q
    constructor
    · intro h
      obtain ⟨p, s', w', hp, ha, he, h2⟩ := h.inv
      simp only [List.nil_append, List.cons.injEq] at he
      obtain ⟨rfl, rfl⟩ := he
      rcases h2 with ⟨_, rfl⟩ | h2
      · exact ⟨hp, ha⟩
      · exact absurd h2 run_nil
    · rintro ⟨h1, h2⟩; exact .one _ q s h1 h2
  | cons a u ih =>
    intro S s q
    constructor
    · intro h
      obtain ⟨p, s', w', hp, ha, he, h2⟩ := h.inv
      simp only [List.cons_append, List.cons.injEq] at he
      obtain ⟨rfl, rfl⟩ := he
      rcases h2 with ⟨h3, _⟩ | h2
      · simp at h3
      · obtain ⟨h4, h5⟩ := (ih _ _ _).1 h2
        exact ⟨⟨p, hp, ha, h4⟩, h5⟩
    · rintro ⟨⟨p, hp, ha, h4⟩, h5⟩
      exact .cons _ p a _ q hp ha ((ih _ _ _).2 ⟨h4, h5⟩)

/-- Taking the first step by hand. -/
theorem after_head {S T : List Nat} {s : σ} (hT : ∀ q, q ∈ T ↔ ∃ p ∈ S, A p s ∧ q ∈ F p)
    (w : List σ) (q : Nat) : after F A T w q ↔ after F A S (s :: w) q := by
  cases w with
  | nil => exact hT q
  | cons a w =>
    constructor
    · rintro ⟨x, hx, ha, h⟩
      obtain ⟨p, hp, h1, h2⟩ := (hT x).1 hx
      exact ⟨p, hp, h1, x, h2, ha, h⟩
    · rintro ⟨p, hp, h1, x, h2, ha, h⟩
      exact ⟨x, (hT x).2 ⟨p, hp, h1, h2⟩, ha, h⟩

theorem after_snoc (u : List σ) (s : σ) : ∀ (S : List Nat) (q : Nat),
    after F A S (u ++ [s]) q ↔ ∃ p, after F A S u p ∧ A p s ∧ q ∈ F p := by
  induction u with
  | nil =>
    intro S q
    simp only [List.nil_append, after]
  | cons a u ih =>
    intro S q
    simp only [List.cons_append, after, ih]
    constructor
    · rintro ⟨p, hp, ha, x, h⟩; exact ⟨x, ⟨p, hp, ha, h.1⟩, h.2⟩
    · rintro ⟨x, ⟨p, hp, ha, h⟩, h2⟩; exact ⟨p, hp, ha, x, h, h2⟩

theorem after_union (w : List σ) (S T : List Nat) (q : Nat) :
    after F A (S ++ T) w q ↔ after F A S w q ∨ after F A T w q := by
  cases w with
  | nil => simp [after]
  | cons s w =>
    simp only [after, List.mem_append]
    constructor
    · rintro ⟨p, h | h, h2⟩
      · exact .inl ⟨p, h, h2⟩
      · exact .inr ⟨p, h, h2⟩
    · rintro (⟨p, h, h2⟩ | ⟨p, h, h2⟩)
      · exact ⟨p, .inl h, h2⟩
      · exact ⟨p, .inr h, h2⟩

theorem after_congr {G : Nat → List Nat} {B : Nat → σ → Prop} (P : Nat → Prop)
    (hF : ∀ p, P p → ∀ q ∈ F p, P q) (hFG : ∀ p, P p → F p = G p)
    (hAB : ∀ p, P p → ∀ s, A p s ↔ B p s) (w : List σ) : ∀ (S : List Nat), (∀ p ∈ S, P p) →
    ∀ q, after F A S w q ↔ after G B S w q := by
  induction w with
  | nil => intro S _ q; exact Iff.rfl
  | cons s w ih =>
    intro S hS q
    simp only [after]
    constructor
    · rintro ⟨p, hp, ha, h⟩
      refine ⟨p, hp, (hAB p (hS p hp) s).1 ha, ?_⟩
      rw [← hFG p (hS p hp)]
      exact (ih _ (hF p (hS p hp)) q).1 h
    · rintro ⟨p, hp, ha, h⟩
      refine ⟨p, hp, (hAB p (hS p hp) s).2 ha, ?_⟩
      rw [← hFG p (hS p hp)] at h
      exact (ih _ (hF p (hS p hp)) q).2 h

theorem after_mem (P : Nat → Prop) (hF : ∀ p, P p → ∀ q ∈ F p, P q) (w : List σ) :
    ∀ (S : List Nat), (∀ p ∈ S, P p) → ∀ q, after F A S w q → P q := by
  induction w with
  | nil => intro S hS q h; exact hS q h
  | cons s w ih =>
    rintro S hS q ⟨p, hp, _, h⟩
    exact ih _ (hF p (hS p hp)) q h

theorem after_map {τ : Type} (f : σ → τ) {B : Nat → τ → Prop} (h : ∀ p s, A p s ↔ B p (f s))
    (w : List σ) : ∀ (S : List Nat) (q : Nat), after F A S w q ↔ after F B S (w.map f) q := by
  induction w with
  | nil => intro S q; exact Iff.rfl
  | cons s w ih =>
    intro S q
    simp only [after, List.map_cons, ih, h]

/-- Every leaf other than the ones for the empty word reads something. -/
def Live (A : Nat → σ → Prop) : Tree → Prop
  | leaf n null => null = true ∨ ∃ s, A n s
  | fin n => ∃ s, A n s
  | seq l r => l.Live A ∧ r.Live A
  | sel l r => l.Live A ∧ r.Live A
  | iter t _ => t.Live A

theorem Live.word {t : Tree} (h : t.Live A) : ∃ w, t.lang A w := by
  induction t with
  | leaf n null =>
    rcases h with rfl | ⟨s, h⟩
    · exact ⟨[], by simp [lang]⟩
    · cases null
      · exact ⟨[s], by simpa [lang] using h⟩
      · exact ⟨[], by simp [lang]⟩
  | fin n => obtain ⟨s, h⟩ := h; exact ⟨[s], s, rfl, h⟩
  | seq l r ihl ihr =>
    obtain ⟨u, hu⟩ := ihl h.1
    obtain ⟨v, hv⟩ := ihr h.2
    exact ⟨u ++ v, u, v, rfl, hu, hv⟩
  | sel l r ihl ihr => obtain ⟨u, hu⟩ := ihl h.1; exact ⟨u, .inl hu⟩
  | iter t _ _ => exact ⟨[], .nil⟩

theorem Live.first {t : Tree} (h : t.Live A) {q : Nat} {s : σ} (hq : q ∈ t.firstpos) (hs : A q s) :
    ∃ v, t.lang A (s :: v) := by
  induction t with
  | leaf n null =>
    cases null
    · simp only [firstpos, Bool.false_eq_true, if_false, List.mem_singleton] at hq
      subst hq
      exact ⟨[], by simpa [lang] using hs⟩
    · simp [firstpos] at hq
  | fin n =>
    simp only [firstpos, List.mem_singleton] at hq
    subst hq
    exact ⟨[], s, rfl, hs⟩
  | seq l r ihl ihr =>
    simp only [firstpos, List.mem_append] at hq
    rcases hq with hq | hq
    · obtain ⟨u, hu⟩ := ihl h.1 hq
      obtain ⟨v, hv⟩ := h.2.word
      exact ⟨u ++ v, s :: u, v, rfl, hu, hv⟩
    · split at hq
      · rename_i hn
        obtain ⟨v, hv⟩ := ihr h.2 hq
        exact ⟨v, [], s :: v, rfl, (nullable_iff A l).1 hn, hv⟩
      · cases hq
  | sel l r ihl ihr =>
    simp only [firstpos, List.mem_append] at hq
    rcases hq with hq | hq
    · obtain ⟨u, hu⟩ := ihl h.1 hq; exact ⟨u, .inl hu⟩
    · obtain ⟨u, hu⟩ := ihr h.2 hq; exact ⟨u, .inr hu⟩
  | iter t _ ih =>
    obtain ⟨u, hu⟩ := ih h hq
    exact ⟨u, by have := Star.app (s :: u) [] hu .nil; rwa [List.append_nil] at this⟩

theorem Live.last {t : Tree} (h : t.Live A) {q : Nat} {s : σ} (hq : q ∈ t.lastpos) (hs : A q s) :
    ∃ v, t.lang A (v ++ [s]) := by
  induction t with
  | leaf n null =>
    cases null
    · simp only [lastpos, Bool.false_eq_true, if_false, List.mem_singleton] at hq
      subst hq
      exact ⟨[], by simpa [lang] using hs⟩
    · simp [lastpos] at hq
  | fin n =>
    simp only [lastpos, List.mem_singleton] at hq
    subst hq
    exact ⟨[], s, rfl, hs⟩
  | seq l r ihl ihr =>
    simp only [lastpos, List.mem_append] at hq
    rcases hq with hq | hq
    · split at hq
      · rename_i hn
        obtain ⟨v, hv⟩ := ihl h.1 hq
        exact ⟨v, v ++ [s], [], by simp, hv, (nullable_iff A r).1 hn⟩
      · cases hq
    · obtain ⟨u, hu⟩ := h.1.word
      obtain ⟨v, hv⟩ := ihr h.2 hq
      exact ⟨u ++ v, u, v ++ [s], by simp, hu, hv⟩
  | sel l r ihl ihr =>
    simp only [lastpos, List.mem_append] at hq
    rcases hq with hq | hq
    · obtain ⟨u, hu⟩ := ihl h.1 hq; exact ⟨u, .inl hu⟩
    · obtain ⟨u, hu⟩ := ihr h.2 hq; exact ⟨u, .inr hu⟩
  | iter t _ ih =>
    obtain ⟨u, hu⟩ := ih h hq
    exact ⟨u, by have := Star.app (u ++ [s]) [] hu .nil; rwa [List.append_nil] at this⟩

/-- Two positions one of which follows the other are used one after the other in
some word. -/
theorem Live.follow {t : Tree} (h : t.Live A) {p q : Nat} {a b : σ} (hq : q ∈ t.follow p)
    (ha : A p a) (hb : A q b) : ∃ u v, t.lang A (u ++ a :: b :: v) := by
  induction t with
  | leaf n null => simp [Tree.follow] at hq
  | fin n => simp [Tree.follow] at hq
  | seq l r ihl ihr =>
    simp only [Tree.follow, List.mem_append] at hq
    rcases hq with (hq | hq) | hq
    · obtain ⟨u, v, hw⟩ := ihl h.1 hq
      obtain ⟨x, hx⟩ := h.2.word
      exact ⟨u, v ++ x, _, x, by simp, hw, hx⟩
    · obtain ⟨u, v, hw⟩ := ihr h.2 hq
      obtain ⟨x, hx⟩ := h.1.word
      exact ⟨x ++ u, v, x, _, by simp, hx, hw⟩
    · split at hq
      · rename_i hp
        obtain ⟨u, hu⟩ := h.1.last hp ha
        obtain ⟨v, hv⟩ := h.2.first hq hb
        exact ⟨u, v, u ++ [a], b :: v, by simp, hu, hv⟩
      · cases hq
  | sel l r ihl ihr =>
    simp only [Tree.follow, List.mem_append] at hq
    rcases hq with hq | hq
    · obtain ⟨u, v, hw⟩ := ihl h.1 hq; exact ⟨u, v, .inl hw⟩
    · obtain ⟨u, v, hw⟩ := ihr h.2 hq; exact ⟨u, v, .inr hw⟩
  | iter t g ih =>
    simp only [Tree.follow, List.mem_append] at hq
    rcases hq with hq | hq
    · obtain ⟨u, v, hw⟩ := ih h hq
      exact ⟨u, v, by have := Star.app _ [] hw .nil; rwa [List.append_nil] at this⟩
    · split at hq
      · rename_i hp
        obtain ⟨u, hu⟩ := Live.last (t := t) h hp ha
        obtain ⟨v, hv⟩ := Live.first (t := t) h hq hb
        refine ⟨u, v, ?_⟩
        have := Star.app _ _ hu (Star.app _ [] hv .nil)
        rw [List.append_nil, List.append_assoc] at this
        exact this
      · cases hq

theorem after_trans (v : List σ) {p q : Nat} (h2 : after F A [p] v q) (u : List σ) :
    ∀ (S : List Nat), after F A S u p → after F A S (u ++ v) q := by
  induction u with
  | nil =>
    intro S h1
    cases v with
    | nil =>
      have h2 : q ∈ [p] := h2
      rw [List.mem_singleton] at h2
      rw [h2]; exact h1
    | cons a v =>
      obtain ⟨x, hx, h3, h4⟩ := h2
      rw [List.mem_singleton] at hx
      subst hx
      exact ⟨x, h1, h3, h4⟩
  | cons a u ih =>
    rintro S ⟨x, hx, h3, h4⟩
    exact ⟨x, hx, h3, ih _ h4⟩

theorem after_mono {G : Nat → List Nat} (hFG : ∀ p, ∀ q ∈ F p, q ∈ G p) (w : List σ) :
    ∀ (S T : List Nat), (∀ p ∈ S, p ∈ T) → ∀ q, after F A S w q → after G A T w q := by
  induction w with
  | nil => intro S T hS q h; exact hS q h
  | cons s w ih =>
    rintro S T hS q ⟨p, hp, ha, h⟩
    exact ⟨p, hS p hp, ha, ih _ _ (hFG p) q h⟩

/-- Words over an embedded alphabet. -/
theorem lang_map {τ : Type} (f : σ → τ) (t : Tree) {B : Nat → τ → Prop}
    (h : ∀ n ∈ t.pos, ∀ x, B n x ↔ ∃ s, x = f s ∧ A n s) :
    ∀ w, t.lang B w ↔ ∃ u, w = u.map f ∧ t.lang A u := by
  induction t with
  | leaf n null =>
    intro w
    have h' := h n (by simp [pos])
    cases null
    · simp only [lang, Bool.false_eq_true, if_false]
      constructor
      · rintro ⟨x, rfl, hx⟩
        obtain ⟨s, rfl, hs⟩ := (h' x).1 hx
        exact ⟨[s], rfl, s, rfl, hs⟩
      · rintro ⟨u, rfl, s, rfl, hs⟩
        exact ⟨f s, rfl, (h' _).2 ⟨s, rfl, hs⟩⟩
    · simp [lang]
  | fin n =>
    intro w
    have h' := h n (by simp [pos])
    simp only [lang]
    constructor
    · rintro ⟨x, rfl, hx⟩
      obtain ⟨s, rfl, hs⟩ := (h' x).1 hx
      exact ⟨[s], rfl, s, rfl, hs⟩
    · rintro ⟨u, rfl, s, rfl, hs⟩
      exact ⟨f s, rfl, (h' _).2 ⟨s, rfl, hs⟩⟩
  | seq l r ihl ihr =>
    intro w
    have hl := ihl fun n hn => h n (by simp [pos, hn])
    have hr := ihr fun n hn => h n (by simp [pos, hn])
    simp only [lang]
    constructor
    · rintro ⟨a, b, rfl, ha, hb⟩
      obtain ⟨u, rfl, hu⟩ := (hl a).1 ha
      obtain ⟨v, rfl, hv⟩ := (hr b).1 hb
      exact ⟨u ++ v, by simp, u, v, rfl, hu, hv⟩
    · rintro ⟨_, rfl, u, v, rfl, hu, hv⟩
      exact ⟨u.map f, v.map f, by simp, (hl _).2 ⟨u, rfl, hu⟩, (hr _).2 ⟨v, rfl, hv⟩⟩
  | sel l r ihl ihr =>
    intro w
    have hl := ihl fun n hn => h n (by simp [pos, hn])
    have hr := ihr fun n hn => h n (by simp [pos, hn])
    simp only [lang, hl, hr]
    constructor
    · rintro (⟨u, e, hu⟩ | ⟨u, e, hu⟩)
      · exact ⟨u, e, .inl hu⟩
      · exact ⟨u, e, .inr hu⟩
    · rintro ⟨u, e, hu | hu⟩
      · exact .inl ⟨u, e, hu⟩
      · exact .inr ⟨u, e, hu⟩
  | iter t g ih =>
    intro w
    have ht := ih fun n hn => h n (by simpa [pos] using hn)
    simp only [lang]
    constructor
    · intro hs
      induction hs with
      | nil => exact ⟨[], rfl, .nil⟩
      | app a b ha _ ih2 =>
        obtain ⟨u, rfl, hu⟩ := (ht a).1 ha
        obtain ⟨v, rfl, hv⟩ := ih2
        exact ⟨u ++ v, by simp, .app u v hu hv⟩
    · rintro ⟨u, rfl, hs⟩
      induction hs with
      | nil => exact .nil
      | app u v hu _ ih2 =>
        rw [List.map_append]
        exact .app _ _ ((ht _).2 ⟨u, rfl, hu⟩) ih2

/-- Positions that can occur in position lists: all but the empty-word leaves. -/
def act : Tree → List Nat
  | leaf n null => if null then [] else [n]
  | fin n => [n]
  | seq l r => l.act ++ r.act
  | sel l r => l.act ++ r.act
  | iter t _ => t.act

theorem act_sub (t : Tree) : ∀ n ∈ t.act, n ∈ t.pos := by
  induction t with
  | leaf n null => cases null <;> simp [act, pos]
  | fin n => simp [act, pos]
  | seq l r ihl ihr | sel l r ihl ihr =>
    intro n hn
    simp only [act, pos, List.mem_append] at *
    exact hn.elim (fun h => .inl (ihl n h)) (fun h => .inr (ihr n h))
  | iter t _ ih => exact ih

theorem firstpos_act (t : Tree) : ∀ n ∈ t.firstpos, n ∈ t.act := by
  induction t with
  | leaf n null => cases null <;> simp [act, firstpos]
  | fin n => simp [act, firstpos]
  | seq l r ihl ihr =>
    intro n hn
    simp only [act, firstpos, List.mem_append] at *
    rcases hn with h | h
    · exact .inl (ihl n h)
    · split at h
      · exact .inr (ihr n h)
      · cases h
  | sel l r ihl ihr =>
    intro n hn
    simp only [act, firstpos, List.mem_append] at *
    exact hn.elim (fun h => .inl (ihl n h)) (fun h => .inr (ihr n h))
  | iter t _ ih => exact ih

theorem follow_act (t : Tree) : ∀ p, ∀ n ∈ t.follow p, n ∈ t.act := by
  induction t with
  | leaf n null => simp [Tree.follow]
  | fin n => simp [Tree.follow]
  | seq l r ihl ihr =>
    intro p n hn
    simp only [act, Tree.follow, List.mem_append] at *
    rcases hn with (h | h) | h
    · exact .inl (ihl p n h)
    · exact .inr (ihr p n h)
    · split at h
      · exact .inr (firstpos_act r n h)
      · cases h
  | sel l r ihl ihr =>
    intro p n hn
    simp only [act, Tree.follow, List.mem_append] at *
    exact hn.elim (fun h => .inl (ihl p n h)) (fun h => .inr (ihr p n h))
  | iter t _ ih =>
    intro p n hn
    simp only [act, Tree.follow, List.mem_append] at *
    rcases hn with h | h
    · exact ih p n h
    · split at h
      · exact firstpos_act t n h
      · cases h

theorem Wf.act {nt : Nat} {h : Heap} {t : Tree} (H : t.Wf nt h) : ∀ n ∈ t.act, h.tokOf n ≠ some nt := by
  induction t with
  | leaf n null =>
    obtain ⟨tk, h1, h2⟩ := H
    intro k hk
    cases null
    · simp only [Tree.act, Bool.false_eq_true, if_false, List.mem_singleton] at hk
      subst hk
      rw [h1]
      intro h
      injection h with h
      simp [h] at h2
    · simp [Tree.act] at hk
  | fin n =>
    obtain ⟨d, h1⟩ := H
    intro k hk
    simp only [Tree.act, List.mem_singleton] at hk
    subst hk
    rw [Heap.tok_of_fin h1]; simp
  | seq l r ihl ihr | sel l r ihl ihr =>
    intro n hn
    simp only [Tree.act, List.mem_append] at hn
    exact hn.elim (ihl H.1 n) (ihr H.2 n)
  | iter t _ ih => exact ih H

theorem lastpos_act (t : Tree) : ∀ n ∈ t.lastpos, n ∈ t.act := by
  induction t with
  | leaf n null => cases null <;> simp [Tree.act, lastpos]
  | fin n => simp [Tree.act, lastpos]
  | seq l r ihl ihr =>
    intro n hn
    simp only [Tree.act, lastpos, List.mem_append] at *
    rcases hn with h | h
    · split at h
      · exact .inl (ihl n h)
      · cases h
    · exact .inr (ihr n h)
  | sel l r ihl ihr =>
    intro n hn
    simp only [Tree.act, lastpos, List.mem_append] at *
    exact hn.elim (fun h => .inl (ihl n h)) (fun h => .inr (ihr n h))
  | iter t _ ih => exact ih

theorem follow_not_act (t : Tree) (n : Nat) (h : n ∉ t.act) : t.follow n = [] := by
  induction t with
  | leaf => rfl
  | fin => rfl
  | seq l r ihl ihr =>
    simp only [Tree.act, List.mem_append, not_or] at h
    simp only [Tree.follow, ihl h.1, ihr h.2]
    rw [if_neg fun h' => h.1 (lastpos_act l n h')]; rfl
  | sel l r ihl ihr =>
    simp only [Tree.act, List.mem_append, not_or] at h
    simp only [Tree.follow, ihl h.1, ihr h.2]; rfl
  | iter t _ ih =>
    simp only [Tree.follow, ih h]
    rw [if_neg fun h' => h (lastpos_act t n h')]; rfl

theorem Live.read {t : Tree} (h : t.Live A) : ∀ n ∈ t.act, ∃ s, A n s := by
  induction t with
  | leaf n null =>
    intro k hk
    rcases h with rfl | h
    · simp [Tree.act] at hk
    · cases null
      · simp [Tree.act] at hk; subst hk; exact h
      · simp [Tree.act] at hk
  | fin n => intro k hk; simp [Tree.act] at hk; subst hk; exact h
  | seq l r ihl ihr | sel l r ihl ihr =>
    intro n hn
    simp only [Tree.act, List.mem_append] at hn
    exact hn.elim (ihl h.1 n) (ihr h.2 n)
  | iter t _ ih => exact ih h

/-- From every position a last position can be reached. -/
theorem Live.rest {t : Tree} (h : t.Live A) (hn : t.pos.Nodup) :
    ∀ q ∈ t.act, ∃ w p, p ∈ t.lastpos ∧ after t.follow A [q] w p := by
  induction t with
  | leaf n null =>
    intro q hq
    exact ⟨[], q, by simpa [act, lastpos] using hq, by simp [after]⟩
  | fin n =>
    intro q hq
    exact ⟨[], q, by simpa [act, lastpos] using hq, by simp [after]⟩
  | seq l r ihl ihr =>
    simp only [pos, List.nodup_append] at hn
    have hr : ∀ q ∈ r.act, ∃ w p, p ∈ (seq l r).lastpos ∧ after (seq l r).follow A [q] w p := by
      intro q hq
      obtain ⟨w, p, hp, hw⟩ := ihr h.2 hn.2.1 q hq
      exact ⟨w, p, by simp [lastpos, hp],
        after_mono (fun p q hq => by simp [Tree.follow, hq]) w _ _ (fun _ h => h) p hw⟩
    intro q hq
    simp only [act, List.mem_append] at hq
    rcases hq with hq | hq
    · obtain ⟨w, p, hp, hw⟩ := ihl h.1 hn.1 q hq
      have hw' : after (seq l r).follow A [q] w p :=
        after_mono (fun p q hq => by simp [Tree.follow, hq]) w _ _ (fun _ h => h) p hw
      cases hf : r.firstpos with
      | nil =>
        have hnull : r.nullable = true := by
          obtain ⟨v, hv⟩ := h.2.word
          rcases (lang_iff_run r hn.2.1 v).1 hv with ⟨_, h2⟩ | ⟨q', _, h2⟩
          · exact h2
          · rw [hf] at h2; exact absurd h2 run_empty
        exact ⟨w, p, by simp [lastpos, hnull, hp], hw'⟩
      | cons q' fs =>
        obtain ⟨s, hs⟩ := h.1.read p (l.lastpos_act p hp)
        obtain ⟨w', p', hp', hw2⟩ := hr q' (r.firstpos_act q' (by simp [hf]))
        refine ⟨w ++ s :: w', p', hp', after_trans _ ?_ _ _ hw'⟩
        refine ⟨p, by simp, hs, ?_⟩
        refine after_mono (fun _ _ h => h) w' [q'] _ ?_ p' hw2
        intro x hx
        rw [List.mem_singleton] at hx
        subst hx
        simp [Tree.follow, hp, hf]
    · exact hr q hq
  | sel l r ihl ihr =>
    simp only [pos, List.nodup_append] at hn
    intro q hq
    simp only [act, List.mem_append] at hq
    rcases hq with hq | hq
    · obtain ⟨w, p, hp, hw⟩ := ihl h.1 hn.1 q hq
      exact ⟨w, p, by simp [lastpos, hp],
        after_mono (fun p q hq => by simp [Tree.follow, hq]) w _ _ (fun _ h => h) p hw⟩
    · obtain ⟨w, p, hp, hw⟩ := ihr h.2 hn.2.1 q hq
      exact ⟨w, p, by simp [lastpos, hp],
        after_mono (fun p q hq => by simp [Tree.follow, hq]) w _ _ (fun _ h => h) p hw⟩
  | iter t g ih =>
    intro q hq
    obtain ⟨w, p, hp, hw⟩ := ih h hn q hq
    exact ⟨w, p, hp, after_mono (fun p q hq => by simp [Tree.follow, hq]) w _ _ (fun _ h => h) p hw⟩

end Tree

/-- Symbols read by a node, with `none` for the end of a rule. -/
def RA (tr : Traits) (m : CharsetMap) (h : Heap) (n : Nat) : Option Sym → Prop
  | some s => Reads (tokReads tr m) h n s
  | none => ∃ d, h.finOf n = some d

theorem RA_congr {tr : Traits} {m : CharsetMap} {h h' : Heap} {n : Nat} (ht : h'.tokOf n = h.tokOf n)
    (hf : h'.finOf n = h.finOf n) (s : Option Sym) : RA tr m h n s ↔ RA tr m h' n s := by
  cases s with
  | none => simp only [RA, hf]
  | some s => simp only [RA, Reads, ht]

/-- The token of a leaf: the empty word, `^` (if `b`), `$` (if `e`) or a charset. -/
def TokIs (tr : Traits) (m : CharsetMap) (b e : Bool) (tk : Nat) : Prop :=
  tk = tr.nullToken ∨ (b = true ∧ tk = tr.bolToken) ∨ (e = true ∧ tk = tr.eolToken) ∨
    ∃ c ∈ m, c.2 = tk

/-- Syntax tree `root` of a rule with end node `f`, whose words are those of `K`. -/
structure RuleTree (tr : Traits) (m : CharsetMap) (h : Heap) (b e : Bool) (root : Tree) (f : Nat)
    (d : NodeData) (K : List Sym → Prop) : Prop where
  lay : root.Lay tr.nullToken h
  mem : f ∈ root.pos
  last : root.lastpos = [f]
  nnull : root.nullable = false
  fin : h.finOf f = some d
  only : ∀ n ∈ root.pos, ∀ d', h.finOf n = some d' → n = f
  lang : ∀ w, root.lang (RA tr m h) w ↔ ∃ u, w = u.map some ++ [none] ∧ K u
  toks : TokAll (TokIs tr m b e) h root
  folBol : ∀ p, ∀ n ∈ root.follow p, h.tokOf n ≠ some tr.bolToken
  live : root.Live (RA tr m h)

theorem Tree.Live.congr {σ : Type} {A B : Nat → σ → Prop} {t : Tree} (h : t.Live A)
    (e : ∀ n ∈ t.pos, ∀ s, A n s → B n s) : t.Live B := by
  induction t with
  | leaf n null =>
    rcases h with h | ⟨s, h⟩
    · exact .inl h
    · exact .inr ⟨s, e n (by simp [pos]) s h⟩
  | fin n => obtain ⟨s, h⟩ := h; exact ⟨s, e n (by simp [pos]) s h⟩
  | seq l r ihl ihr | sel l r ihl ihr =>
    exact ⟨ihl h.1 fun n hn => e n (by simp [pos, hn]), ihr h.2 fun n hn => e n (by simp [pos, hn])⟩
  | iter t _ ih => exact ih h e

namespace RuleTree
variable {tr : Traits} {m : CharsetMap} {h h' : Heap} {b e : Bool} {root : Tree} {f : Nat}
  {d : NodeData} {K : List Sym → Prop}

theorem congr (H : RuleTree tr m h b e root f d K)
    (ho : ∀ n ∈ root.pos, h'.tokOf n = h.tokOf n ∧ h'.finOf n = h.finOf n ∧ h'.fol n = h.fol n) :
    RuleTree tr m h' b e root f d K where
  lay := H.lay.congr ho
  mem := H.mem
  last := H.last
  nnull := H.nnull
  fin := by rw [(ho f H.mem).2.1]; exact H.fin
  only := fun n hn d' h1 => H.only n hn d' (by rw [← (ho n hn).2.1]; exact h1)
  lang := fun w => by
    rw [← H.lang w]
    exact (root.lang_congr (fun n hn s => RA_congr (ho n hn).1 (ho n hn).2.1 s) w).symm
  toks := fun n hn tk htk => H.toks n hn tk (by rw [← (ho n hn).1]; exact htk)
  folBol := fun p n hn => by rw [(ho n (root.follow_sub p n hn)).1]; exact H.folBol p n hn
  live := H.live.congr fun n hn s => (RA_congr (ho n hn).1 (ho n hn).2.1 s).1

theorem ext (H : RuleTree tr m h b e root f d K) (he : ∃ x, h' = h ++ x) :
    RuleTree tr m h' b e root f d K := by
  obtain ⟨x, rfl⟩ := he
  exact H.congr fun n hn =>
    let o := Heap.obs_append_left h x n (H.lay.wf.lt n hn)
    ⟨o.1, o.2.2.1, o.2.2.2⟩

/-- The end node is reached exactly by the words of the rule. -/
theorem words (H : RuleTree tr m h b e root f d K) (u : List Sym) :
    Tree.after h.fol (Reads (tokReads tr m) h) root.firstpos u f ↔ K u := by
  rw [Tree.after_map (F := h.fol) (A := Reads (tokReads tr m) h) (f := some) (B := RA tr m h)
    (fun _ _ => Iff.rfl)]
  have h1 := H.lang (u.map some ++ [none])
  rw [Tree.lang_iff_run root H.lay.nodup] at h1
  simp only [H.last, List.mem_singleton, exists_eq_left, Tree.run_snoc] at h1
  have h2 : (u.map some ++ [(none : Option Sym)] = [] ∧ root.nullable = true) ↔ False := by simp
  rw [h2, false_or] at h1
  have h3 : (∃ u', u.map some ++ [(none : Option Sym)] = u'.map some ++ [none] ∧ K u') ↔ K u := by
    constructor
    · rintro ⟨u', he, hk⟩
      have := List.append_cancel_right he
      have hinj : Function.Injective (some : Sym → Option Sym) := fun a b h => by injection h
      rw [(List.map_inj_right (fun a b h => hinj h)).1 this]; exact hk
    · intro hk; exact ⟨u, rfl, hk⟩
  rw [h3] at h1
  rw [← h1]
  rw [Tree.after_congr (F := h.fol) (G := root.follow) (A := RA tr m h) (B := RA tr m h) (· ∈ root.pos)
    (fun p hp q hq => by rw [H.lay.fol p hp] at hq; exact root.follow_sub p q hq)
    (fun p hp => H.lay.fol p hp) (fun _ _ _ => Iff.rfl) _ _ root.firstpos_sub]
  constructor
  · intro hh; exact ⟨hh, d, H.fin⟩
  · intro hh; exact hh.1

/-- From every position of the tree the end node can be reached. -/
theorem complete (H : RuleTree tr m h b e root f d K) {q : Nat} (hq : q ∈ root.act) :
    ∃ w, Tree.after h.fol (Reads (tokReads tr m) h) [q] w f := by
  obtain ⟨w, p, hp, hw⟩ := H.live.rest H.lay.nodup q hq
  rw [H.last, List.mem_singleton] at hp
  subst hp
  have main : ∀ (w : List (Option Sym)) (S : List Nat), Tree.after root.follow (RA tr m h) S w p →
      (∀ n ∈ S, n ∈ root.pos) →
      ∃ u : List Sym, Tree.after root.follow (RA tr m h) S (u.map some) p := by
    intro w
    induction w with
    | nil => intro S h1 _; exact ⟨[], h1⟩
    | cons s w ih =>
      rintro S ⟨x, hx, ha, h1⟩ hS
      cases s with
      | none =>
        obtain ⟨d', hd'⟩ := ha
        have := H.only x (hS x hx) d' hd'
        subst this
        exact ⟨[], hx⟩
      | some s =>
        obtain ⟨u, hu⟩ := ih _ h1 fun n hn => root.follow_sub x n hn
        exact ⟨s :: u, x, hx, ha, hu⟩
  have hqp : ∀ n ∈ [q], n ∈ root.pos := fun n hn => by
    rw [List.mem_singleton] at hn; subst hn; exact root.act_sub _ hq
  obtain ⟨u, hu⟩ := main w [q] hw hqp
  refine ⟨u, ?_⟩
  rw [Tree.after_map (F := h.fol) (A := Reads (tokReads tr m) h) (f := some) (B := RA tr m h)
    (fun _ _ => Iff.rfl)]
  rw [Tree.after_congr (F := h.fol) (G := root.follow) (A := RA tr m h) (B := RA tr m h) (· ∈ root.pos)
    (fun p hp q hq => by rw [H.lay.fol p hp] at hq; exact root.follow_sub p q hq)
    (fun p hp => H.lay.fol p hp) (fun _ _ _ => Iff.rfl) _ _ hqp]
  exact hu

theorem first_ne (H : RuleTree tr m h b e root f d K) : root.firstpos ≠ [] := by
  intro h0
  obtain ⟨w, hw⟩ := H.live.word
  rcases (Tree.lang_iff_run root H.lay.nodup w).1 hw with ⟨_, h2⟩ | ⟨q, _, h2⟩
  · rw [H.nnull] at h2; cases h2
  · rw [h0] at h2; exact Tree.run_empty h2

/-- Some position read first is `^` exactly if some word starts with it. -/
theorem found_iff (H : RuleTree tr m h b e root f d K) :
    (∃ n ∈ root.firstpos, h.tokOf n = some tr.bolToken) ↔ ∃ v, K (.bol :: v) := by
  constructor
  · rintro ⟨n, hn, htk⟩
    obtain ⟨v, hv⟩ := H.live.first (s := some .bol) hn ⟨_, htk, rfl⟩
    obtain ⟨u, hu, hk⟩ := (H.lang _).1 hv
    cases u with
    | nil => simp at hu
    | cons a u =>
      simp at hu
      exact ⟨u, hu.1 ▸ hk⟩
  · rintro ⟨v, hv⟩
    obtain ⟨p, hp, ⟨tk, h1, h2⟩, _⟩ := (H.words _).2 hv
    exact ⟨p, hp, by rw [h1, show tk = tr.bolToken from h2]⟩

end RuleTree

/-- Every charset contains a character, so every leaf can read something. -/
theorem live_of {tr : Traits} {m : CharsetMap} {h : Heap} {t : Tree} {b e : Bool}
    (hw : t.Wf tr.nullToken h) (hm : ∀ c ∈ m, GoodTok c.1) (ht : TokAll (TokIs tr m b e) h t) :
    t.Live (RA tr m h) := by
  induction t with
  | leaf n null =>
    obtain ⟨tk, h1, h2⟩ := hw
    rcases ht n (by simp [Tree.pos]) tk h1 with h3 | ⟨_, h3⟩ | ⟨_, h3⟩ | ⟨c, hc, h3⟩
    · left; rw [h2, h3]; simp
    · right; exact ⟨some .bol, tk, h1, h3⟩
    · right; exact ⟨some .eol, tk, h1, h3⟩
    · right
      obtain ⟨hn, hne, _⟩ := hm c hc
      have : ∃ x, Mem x c.1 := by
        cases hc1 : c.1 with
        | nil => exact absurd hc1 hne
        | cons r rs =>
          rw [hc1] at hn
          exact ⟨r.1, r, by simp, Nat.le_refl _, (hn.1 r (by simp))⟩
      obtain ⟨x, hx⟩ := this
      exact ⟨some (.ch x), tk, h1, c, hc, h3, hx⟩
  | fin n => obtain ⟨d, h1⟩ := hw; exact ⟨none, d, h1⟩
  | seq l r ihl ihr | sel l r ihl ihr =>
    exact ⟨ihl hw.1 fun n hn => ht n (by simp [Tree.pos, hn]),
      ihr hw.2 fun n hn => ht n (by simp [Tree.pos, hn])⟩
  | iter t _ ih => exact ih hw ht

/-- Words of a rule once `fixup_bol` has been applied where needed. -/
def FixBol (seenBol : Bool) (K : List Sym → Prop) (w : List Sym) : Prop :=
  K w ∨ (seenBol = true ∧ (¬ ∃ v, K (.bol :: v)) ∧ ∃ w', w = .bol :: w' ∧ K w')

/-- The end node put after the tree `t` of the regex. -/
theorem finish_some (tr : Traits) (p0 : PState) (p : PState) (t : Tree) (info : RuleInfo) (g : Greedy)
    (b e : Bool) (m : CharsetMap) (K : List Sym → Prop) (hp : p.trees = [t])
    (hf : Fresh tr.nullToken p0.heap p.heap t) (hgood : ∀ c ∈ m, GoodTok c.1)
    (htok : TokAll (TokIs tr m b e) p.heap t)
    (hlang : TL (tokReads tr m) p.heap t = K) (htail : ∀ w, K w → Sym.bol ∉ w.tail) :
    ∃ h' root, p.finish info g = .ok ({ p with heap := h', trees := [] }, root) ∧
      (∃ x, h' = p0.heap ++ x) ∧ (∀ n ∈ root.pos, p0.heap.length ≤ n) ∧
      RuleTree tr m h' b e root p.heap.length
        (.fin info.id info.userId info.uniqueId info.nextDfa info.pushDfa info.popDfa g) K := by
  have hlt : ∀ n ∈ t.pos, n < p.heap.length := hf.lt
  have hfinT : ∀ n ∈ t.pos, ∃ tk, p.heap.tokOf n = some tk := fun n hn => hf.lay.wf.tok hf.noFin n hn
  -- the heap with the end node
  obtain ⟨h1, hh1⟩ : ∃ h1 : Heap, h1 = p.heap ++ [⟨.fin info.id info.userId info.uniqueId info.nextDfa
    info.pushDfa info.popDfa g, []⟩] := ⟨_, rfl⟩
  have hfin1 : h1.finOf p.heap.length = some (.fin info.id info.userId info.uniqueId info.nextDfa
      info.pushDfa info.popDfa g) := by rw [hh1]; simp [Heap.finOf]
  have hobs : ∀ n, n < p.heap.length → h1.tokOf n = p.heap.tokOf n ∧
      h1.greedyOf n = p.heap.greedyOf n ∧ h1.finOf n = p.heap.finOf n ∧ h1.fol n = p.heap.fol n := by
    intro n hn; rw [hh1]; exact Heap.obs_append_left _ _ n hn
  have hlayF : (Tree.fin p.heap.length).Lay tr.nullToken h1 := by
    refine ⟨⟨_, hfin1⟩, by simp [Tree.pos], ?_⟩
    intro n hn
    simp [Tree.pos] at hn
    subst hn
    rw [hh1]; simp [Heap.fol, Tree.follow]
  have hlayT : t.Lay tr.nullToken h1 := by rw [hh1]; exact hf.lay.append _
  obtain ⟨h2, a1, a2, a3, a4, a5⟩ := Heap.newSeq_lay tr.nullToken h1 t (.fin p.heap.length) hlayT hlayF
    hf.noFin (by intro n hn h; simp [Tree.pos] at h; have := hlt n hn; omega)
  have htok2 : ∀ n ∈ t.pos, h2.tokOf n = p.heap.tokOf n := fun n hn =>
    ((a4 n).1).trans (hobs n (hlt n hn)).1
  have hfin2 : h2.finOf p.heap.length = some (.fin info.id info.userId info.uniqueId info.nextDfa
      info.pushDfa info.popDfa g) := by rw [(a4 _).2.2]; exact hfin1
  have hnof : ∀ n ∈ t.pos, ∀ d, h2.finOf n ≠ some d := by
    intro n hn d h
    obtain ⟨tk, htk⟩ := hfinT n hn
    rw [← htok2 n hn, Heap.tok_of_fin h] at htk
    cases htk
  have htoks : TokAll (TokIs tr m b e) h2 (.seq t (.fin p.heap.length)) := by
    intro n hn tk htk
    simp only [Tree.pos, List.mem_append, List.mem_singleton] at hn
    rcases hn with hn | rfl
    · exact htok n hn tk (by rw [← htok2 n hn]; exact htk)
    · rw [Heap.tok_of_fin hfin2] at htk; cases htk
  have hlive := live_of a2.wf hgood htoks
  have hlangT : ∀ w, t.lang (RA tr m h2) w ↔ ∃ u, w = u.map some ∧ K u := by
    intro w
    rw [Tree.lang_map (A := Reads (tokReads tr m) p.heap) some t]
    · rw [← hlang]; rfl
    · intro n hn x
      cases x with
      | none =>
        simp only [RA, reduceCtorEq, false_and, exists_false, iff_false]
        rintro ⟨d, hd⟩; exact hnof n hn d hd
      | some s =>
        simp only [RA, Reads, htok2 n hn, Option.some.injEq, exists_eq_left']
  have hlangR : ∀ w, (Tree.seq t (.fin p.heap.length)).lang (RA tr m h2) w ↔
      ∃ u, w = u.map some ++ [none] ∧ K u := by
    intro w
    simp only [Tree.lang]
    constructor
    · rintro ⟨u, v, rfl, h3, s, rfl, h4⟩
      obtain ⟨u', rfl, hk⟩ := (hlangT u).1 h3
      cases s with
      | none => exact ⟨u', rfl, hk⟩
      | some s =>
        obtain ⟨tk, h5, _⟩ := h4
        rw [Heap.tok_of_fin hfin2] at h5; cases h5
    · rintro ⟨u, rfl, hk⟩
      exact ⟨u.map some, [none], rfl, (hlangT _).2 ⟨u, rfl, hk⟩, none, rfl, _, hfin2⟩
  refine ⟨h2, _, ?_, ?_, ?_, ⟨a2, by simp [Tree.pos], by simp [Tree.lastpos, Tree.nullable],
    by simp [Tree.nullable], hfin2, ?_, hlangR, htoks, ?_, hlive⟩⟩
  · unfold PState.finish
    rw [hp]
    simp only [bind, Except.bind]
    rw [← hh1, a1]
  · obtain ⟨x, hx⟩ := hf.ext
    have hle : p0.heap.length ≤ p.heap.length := by rw [hx]; simp
    refine Heap.prefix_of_obs (by rw [a3, hh1]; simp; omega) fun n hn => ?_
    have hn' : n ∉ t.pos := fun h => by have := hf.ge n h; omega
    have o := hobs n (by omega)
    have o2 := Heap.obs_append_left p0.heap x n hn
    rw [← hx] at o2
    refine ⟨((a4 n).1.trans o.1).trans o2.1, ((a4 n).2.1.trans o.2.1).trans o2.2.1,
      ((a4 n).2.2.trans o.2.2.1).trans o2.2.2.1, ((a5 n hn').trans o.2.2.2).trans o2.2.2.2⟩
  · intro n hn
    simp only [Tree.pos, List.mem_append, List.mem_singleton] at hn
    rcases hn with hn | rfl
    · exact hf.ge n hn
    · obtain ⟨x, hx⟩ := hf.ext; rw [hx]; simp
  · intro n hn d' hd
    simp only [Tree.pos, List.mem_append, List.mem_singleton] at hn
    rcases hn with hn | rfl
    · exact absurd hd (hnof n hn d')
    · rfl
  · intro q n hn htk
    have hact : q ∈ (Tree.seq t (.fin p.heap.length)).act := by
      by_cases h : q ∈ (Tree.seq t (.fin p.heap.length)).act
      · exact h
      · rw [Tree.follow_not_act _ _ h] at hn; cases hn
    obtain ⟨a, ha⟩ := hlive.read q hact
    obtain ⟨u, v, hw⟩ := hlive.follow hn ha (b := some .bol) ⟨_, htk, rfl⟩
    obtain ⟨u', he, hk⟩ := (hlangR _).1 hw
    have hmem : Sym.bol ∈ u'.tail := by
      have h6 : (u'.map some ++ [none]).tail = (u ++ a :: some Sym.bol :: v).tail := by rw [he]
      have h7 : some Sym.bol ∈ (u ++ a :: some Sym.bol :: v).tail := by
        cases u with
        | nil => simp
        | cons y u => simp
      rw [← h6] at h7
      cases u' with
      | nil => simp at h7
      | cons y u' => simpa using h7
    exact htail u' hk hmem

/-- The end node of the empty regex. -/
theorem finish_none (tr : Traits) (p : PState) (info : RuleInfo) (g : Greedy)
    (b e : Bool) (m : CharsetMap) (hp : p.trees = []) :
    ∃ h' root, p.finish info g = .ok ({ p with heap := h', trees := [] }, root) ∧
      (∃ x, h' = p.heap ++ x) ∧ (∀ n ∈ root.pos, p.heap.length ≤ n) ∧
      RuleTree tr m h' b e root p.heap.length
        (.fin info.id info.userId info.uniqueId info.nextDfa info.pushDfa info.popDfa g)
        (fun w => w = []) := by
  obtain ⟨h1, hh1⟩ : ∃ h1 : Heap, h1 = p.heap ++ [⟨.fin info.id info.userId info.uniqueId info.nextDfa
    info.pushDfa info.popDfa g, []⟩] := ⟨_, rfl⟩
  have hfin1 : h1.finOf p.heap.length = some (.fin info.id info.userId info.uniqueId info.nextDfa
      info.pushDfa info.popDfa g) := by rw [hh1]; simp [Heap.finOf]
  have hpos : ∀ n ∈ (Tree.fin p.heap.length).pos, n = p.heap.length := by simp [Tree.pos]
  refine ⟨h1, .fin p.heap.length, ?_, ⟨_, hh1⟩, ?_,
    ⟨⟨⟨_, hfin1⟩, by simp [Tree.pos], ?_⟩, by simp [Tree.pos], rfl, rfl, hfin1,
      fun n hn _ _ => hpos n hn, ?_, ?_, by simp [Tree.follow], ⟨none, _, hfin1⟩⟩⟩
  · unfold PState.finish
    rw [hp, hh1]
  · intro n hn; rw [hpos n hn]; exact Nat.le_refl _
  · intro n hn
    rw [hpos n hn, hh1]; simp [Heap.fol, Tree.follow]
  · intro w
    simp only [Tree.lang, exists_eq_right, List.map_nil, List.nil_append]
    constructor
    · rintro ⟨s, rfl, h⟩
      cases s with
      | none => rfl
      | some s =>
        obtain ⟨tk, h5, _⟩ := h
        rw [Heap.tok_of_fin hfin1] at h5; cases h5
    · rintro rfl; exact ⟨none, rfl, _, hfin1⟩
  · intro n hn tk htk
    rw [hpos n hn, Heap.tok_of_fin hfin1] at htk; cases htk

theorem fixupBol_spec (tr : Traits) (h0 : Heap) (p : PState) (root : Tree) (f : Nat) (d : NodeData)
    (b e : Bool) (m : CharsetMap) (K : List Sym → Prop) (hm : IdsOk tr m)
    (hext : ∃ x, p.heap = h0 ++ x) (hge : ∀ n ∈ root.pos, h0.length ≤ n)
    (H : RuleTree tr m p.heap b e root f d K) :
    ∃ h' root', p.fixupBol tr root = .ok ({ p with heap := h' }, root') ∧
      (∃ x, h' = h0 ++ x) ∧ (∀ n ∈ root'.pos, h0.length ≤ n) ∧
      RuleTree tr m h' true e root' f d (FixBol true K) := by
  have hany : (root.firstpos.any (PState.isBolLeaf tr p.heap)) = true ↔ ∃ n ∈ root.firstpos, p.heap.tokOf n = some tr.bolToken := by
    rw [List.any_eq_true]
    constructor
    · rintro ⟨n, hn, h⟩
      refine ⟨n, hn, ?_⟩
      unfold Heap.tokOf
      unfold PState.isBolLeaf at h
      split at h
      · rename_i tk g fp heq; rw [heq]; simp at h; rw [h]
      · cases h
    · rintro ⟨n, hn, h⟩
      refine ⟨n, hn, ?_⟩
      unfold PState.isBolLeaf
      unfold Heap.tokOf at h
      split at h
      · rename_i tk g fp heq; rw [heq]; injection h with h; simp [h]
      · cases h
  have htoks : TokAll (TokIs tr m true e) p.heap root := by
    intro n hn tk htk
    rcases H.toks n hn tk htk with h | ⟨_, h⟩ | h | h
    · exact .inl h
    · exact .inr (.inl ⟨rfl, h⟩)
    · exact .inr (.inr (.inl h))
    · exact .inr (.inr (.inr h))
  by_cases hfound : ∃ n ∈ root.firstpos, p.heap.tokOf n = some tr.bolToken
  · refine ⟨p.heap, root, ?_, hext, hge, { H with toks := htoks, lang := fun w => ?_ }⟩
    · unfold PState.fixupBol
      simp only [hany.2 hfound, if_true]
    · rw [H.lang w]
      have := H.found_iff.1 hfound
      simp only [FixBol, this, not_true, false_and, and_false, or_false]
  · have hb : tr.bolToken ≠ tr.nullToken := by
      have := hm.npos; simp only [Traits.bolToken, Traits.nullToken]; omega
    have hlt : ∀ n ∈ root.pos, n < p.heap.length := H.lay.wf.lt
    -- the two new leaves
    obtain ⟨h1, hh1⟩ : ∃ h1 : Heap, h1 = p.heap ++ [⟨.leaf tr.bolToken .yes, []⟩] ++
      [⟨.leaf tr.nullToken .yes, []⟩] := ⟨_, rfl⟩
    have hh1' : h1 = p.heap ++ [⟨.leaf tr.bolToken .yes, []⟩, ⟨.leaf tr.nullToken .yes, []⟩] := by
      rw [hh1]; simp
    have hobs : ∀ n, n < p.heap.length → h1.tokOf n = p.heap.tokOf n ∧
        h1.greedyOf n = p.heap.greedyOf n ∧ h1.finOf n = p.heap.finOf n ∧ h1.fol n = p.heap.fol n := by
      intro n hn; rw [hh1']; exact Heap.obs_append_left _ _ n hn
    have hlen : h1.length = p.heap.length + 2 := by rw [hh1']; simp
    have tb : h1.tokOf p.heap.length = some tr.bolToken := by rw [hh1']; simp [Heap.tokOf]
    have tn : h1.tokOf (p.heap.length + 1) = some tr.nullToken := by rw [hh1']; simp [Heap.tokOf]
    have hlayL : (Tree.sel (.leaf p.heap.length false) (.leaf (p.heap.length + 1) true)).Lay
        tr.nullToken h1 := by
      refine ⟨⟨⟨_, tb, by simp [hb]⟩, ⟨_, tn, by simp⟩⟩, by simp [Tree.pos], ?_⟩
      intro n hn
      simp only [Tree.pos, List.mem_append, List.mem_singleton] at hn
      rcases hn with rfl | rfl <;> rw [hh1'] <;> simp [Heap.fol, Tree.follow]
    have hlayR : root.Lay tr.nullToken h1 := by rw [hh1']; exact H.lay.append _
    obtain ⟨h2, a1, a2, a3, a4, a5⟩ := Heap.newSeq_lay tr.nullToken h1
      (.sel (.leaf p.heap.length false) (.leaf (p.heap.length + 1) true)) root hlayL hlayR rfl
      (by intro n hn h
          simp only [Tree.pos, List.mem_append, List.mem_singleton] at hn
          have := hlt n h; omega)
    have hroot : RuleTree tr m h2 b e root f d K := by
      refine H.congr fun n hn => ?_
      have hl := hlt n hn
      have o := hobs n hl
      refine ⟨(a4 n).1.trans o.1, (a4 n).2.2.trans o.2.2.1, (a5 n ?_).trans o.2.2.2⟩
      simp only [Tree.pos, List.mem_append, List.mem_singleton]; omega
    have tb2 : h2.tokOf p.heap.length = some tr.bolToken := (a4 _).1.trans tb
    have tn2 : h2.tokOf (p.heap.length + 1) = some tr.nullToken := (a4 _).1.trans tn
    have hpos : ∀ n ∈ (Tree.seq (.sel (.leaf p.heap.length false) (.leaf (p.heap.length + 1) true))
        root).pos, n = p.heap.length ∨ n = p.heap.length + 1 ∨ n ∈ root.pos := by
      intro n hn
      simp only [Tree.pos, List.mem_append, List.mem_singleton] at hn
      rcases hn with (h | h) | h
      · exact .inl h
      · exact .inr (.inl h)
      · exact .inr (.inr h)
    refine ⟨h2, _, ?_, ?_, ?_, ⟨a2, by simp [Tree.pos, H.mem], ?_, by simp [Tree.nullable, H.nnull],
      hroot.fin, ?_, ?_, ?_, ?_, ?_⟩⟩
    · unfold PState.fixupBol
      have : (root.firstpos.any (PState.isBolLeaf tr p.heap)) = false := by
        rw [Bool.eq_false_iff]; exact fun h => hfound (hany.1 h)
      simp only [this, Bool.false_eq_true, if_false, Heap.newLeaf, bind, Except.bind]
      rw [← hh1]
      have e1 : (tr.bolToken == tr.nullToken) = false := by simp [hb]
      have e2 : (tr.nullToken == tr.nullToken) = true := by simp
      rw [e1, e2]
      have e3 : (p.heap ++ [⟨NodeData.leaf tr.bolToken .yes, []⟩] : Heap).length = p.heap.length + 1 := by
        simp
      rw [e3, a1]
    · obtain ⟨x, hx⟩ := hext
      have hle : h0.length ≤ p.heap.length := by rw [hx]; simp
      refine Heap.prefix_of_obs (by rw [a3, hlen]; omega) fun n hn => ?_
      have o := hobs n (by omega)
      have o2 := Heap.obs_append_left h0 x n hn
      rw [← hx] at o2
      refine ⟨((a4 n).1.trans o.1).trans o2.1, ((a4 n).2.1.trans o.2.1).trans o2.2.1,
        ((a4 n).2.2.trans o.2.2.1).trans o2.2.2.1, ((a5 n ?_).trans o.2.2.2).trans o2.2.2.2⟩
      simp only [Tree.pos, List.mem_append, List.mem_singleton]; omega
    · intro n hn
      have hle : h0.length ≤ p.heap.length := by obtain ⟨x, hx⟩ := hext; rw [hx]; simp
      rcases hpos n hn with h | h | h
      · omega
      · omega
      · exact hge n h
    · simp only [Tree.lastpos, H.nnull, H.last, Bool.false_eq_true, if_false, List.nil_append]
    · intro n hn d' hd
      rcases hpos n hn with h | h | h
      · subst h; rw [Heap.tok_of_fin hd] at tb2; cases tb2
      · subst h; rw [Heap.tok_of_fin hd] at tn2; cases tn2
      · exact hroot.only n h d' hd
    · intro w
      have hne : ¬ ∃ v, K (.bol :: v) := fun h => hfound (H.found_iff.2 h)
      have hA : ∀ s, RA tr m h2 p.heap.length s ↔ s = some .bol := by
        intro s
        cases s with
        | none =>
          simp only [RA, reduceCtorEq, iff_false]
          rintro ⟨d', hd⟩; rw [Heap.tok_of_fin hd] at tb2; cases tb2
        | some s =>
          simp only [RA, Reads, tb2, Option.some.injEq, exists_eq_left']
          have hn := hm.npos
          cases s with
          | ch c =>
            simp only [tokReads, reduceCtorEq, iff_false]
            rintro ⟨c, hc, h1, _⟩
            have := hm.small c hc
            simp only [Traits.bolToken] at h1; omega
          | bol => simp [tokReads]
          | eol =>
            simp only [tokReads, reduceCtorEq, iff_false]
            simp only [Traits.bolToken, Traits.eolToken]; omega
      simp only [Tree.lang, Bool.false_eq_true, if_false, if_true, hroot.lang, hA]
      constructor
      · rintro ⟨u, v, rfl, ⟨s, rfl, rfl⟩ | rfl, u', rfl, hk⟩
        · exact ⟨.bol :: u', by simp, .inr ⟨rfl, hne, u', rfl, hk⟩⟩
        · exact ⟨u', rfl, .inl hk⟩
      · rintro ⟨u, rfl, hk | ⟨_, _, w', rfl, hk⟩⟩
        · exact ⟨[], _, rfl, .inr rfl, u, rfl, hk⟩
        · exact ⟨[some .bol], w'.map some ++ [none], by simp, .inl ⟨_, rfl, rfl⟩, w', rfl, hk⟩
    · intro n hn tk htk
      rcases hpos n hn with h | h | h
      · subst h; rw [tb2] at htk; injection htk with htk; exact .inr (.inl ⟨rfl, htk.symm⟩)
      · subst h; rw [tn2] at htk; injection htk with htk; exact .inl htk.symm
      · exact htoks n h tk (by
          rw [← (hobs n (hlt n h)).1, ← (a4 n).1]; exact htk)
    · intro q n hn htk
      simp only [Tree.follow, List.nil_append, List.mem_append] at hn
      rcases hn with h | h
      · exact hroot.folBol q n h htk
      · split at h
        · refine hfound ⟨n, h, ?_⟩
          rw [← (hobs n (hlt n (root.firstpos_sub n h))).1, ← (a4 n).1]; exact htk
        · cases h
    · exact ⟨⟨.inr ⟨some .bol, _, tb2, rfl⟩, .inl rfl⟩, hroot.live⟩

/-- Without `^` no word contains the line start. -/
theorem noBol_words {r : Re} (hr : r.noBol = true) {w : List Sym} (h : r.Matches w) :
    Sym.bol ∉ w := by
  have pow : ∀ (L : List Sym → Prop), (∀ w, L w → Sym.bol ∉ w) → ∀ k w, Pow L k w → Sym.bol ∉ w := by
    intro L hL k
    induction k with
    | zero => rintro w rfl; simp
    | succ k ih =>
      rintro w ⟨u, v, rfl, h1, h2⟩
      simp only [List.mem_append, not_or]
      exact ⟨hL u h1, ih v h2⟩
  induction r generalizing w with
  | chars t => obtain ⟨c, _, rfl⟩ := h; simp
  | bol => cases hr
  | eol => rw [show w = [.eol] from h]; simp
  | seq l r ihl ihr =>
    simp only [Re.noBol, Bool.and_eq_true] at hr
    obtain ⟨u, v, rfl, h1, h2⟩ := h
    simp only [List.mem_append, not_or]
    exact ⟨ihl hr.1 h1, ihr hr.2 h2⟩
  | alt l r ihl ihr =>
    simp only [Re.noBol, Bool.and_eq_true] at hr
    rcases h with h | h
    · exact ihl hr.1 h
    · exact ihr hr.2 h
  | opt r lz ih =>
    rcases h with rfl | h
    · simp
    · exact ih hr h
  | star r lz ih => obtain ⟨k, h⟩ := h; exact pow _ (fun w hw => ih hr hw) k w h
  | plus r lz ih => obtain ⟨k, _, h⟩ := h; exact pow _ (fun w hw => ih hr hw) k w h
  | rep r lo hi lz ih => obtain ⟨k, _, _, h⟩ := h; exact pow _ (fun w hw => ih hr hw) k w h

/-- `^` at the head only: words contain the line start at most in front. -/
theorem bolHead_words {r : Re} (hr : r.bolHead = true) {w : List Sym} (h : r.Matches w) :
    Sym.bol ∉ w.tail := by
  have sub : ∀ w : List Sym, Sym.bol ∉ w → Sym.bol ∉ w.tail :=
    fun w h h' => h (List.mem_of_mem_tail h')
  induction r generalizing w with
  | chars t => obtain ⟨c, _, rfl⟩ := h; simp
  | bol => rw [show w = [.bol] from h]; simp
  | eol => rw [show w = [.eol] from h]; simp
  | seq l r ihl ihr =>
    simp only [Re.bolHead, Bool.and_eq_true] at hr
    obtain ⟨u, v, rfl, h1, h2⟩ := h
    have h3 := noBol_words hr.2 h2
    cases u with
    | nil => exact sub _ h3
    | cons a u =>
      simp only [List.cons_append, List.tail_cons, List.mem_append, not_or]
      exact ⟨ihl hr.1 h1, h3⟩
  | alt l r ihl ihr =>
    simp only [Re.bolHead, Bool.and_eq_true] at hr
    rcases h with h | h
    · exact ihl hr.1 h
    · exact ihr hr.2 h
  | opt r lz ih =>
    rcases h with rfl | h
    · simp
    · exact ih hr h
  | star r lz ih => exact sub _ (noBol_words (r := .star r lz) hr h)
  | plus r lz ih => exact sub _ (noBol_words (r := .plus r lz) hr h)
  | rep r lo hi lz ih => exact sub _ (noBol_words (r := .rep r lo hi lz) hr h)

/-- Bound on the number of charset lookups of a rule. -/
def rcost (cost : Token → Nat) : Option Re → Nat
  | none => 0
  | some r => r.lookups cost

def rNoBol : Option Re → Bool
  | none => true
  | some r => r.noBol

def rNoEol : Option Re → Bool
  | none => true
  | some r => r.noEol

def rGreedy : Option Re → Bool
  | none => true
  | some r => r.greedy

/-- Lazy operators in the tokens are lazy operators in the expression. -/
theorem derives_greedy {l : Level} {ts : List Tok} {r : Re} (h : Derives l ts r) :
    nonGreedy ts = !r.greedy := by
  induction h with
  | charset | bol | eol => rfl
  | paren o c ts r ho hc _ ih =>
    unfold nonGreedy at *
    simp only [List.any_append, List.any_cons, List.any_nil, ih, ho, hc, List.cons_append]
    cases r.greedy <;> rfl
  | item _ _ _ ih => exact ih
  | postfix_ ts r d q _ hp ih =>
    unfold nonGreedy at *
    simp only [List.any_append, List.any_cons, List.any_nil, ih]
    cases hp <;> simp [Re.greedy] <;> cases r.greedy <;> rfl
  | seq1 _ _ _ ih => exact ih
  | seq _ _ _ _ _ _ h1 h2 =>
    unfold nonGreedy at *
    simp [List.any_append, h1, h2, Re.greedy, Bool.not_and]
  | alt1 _ _ _ ih => exact ih
  | alt ts us o l r ho _ _ h1 h2 =>
    unfold nonGreedy at *
    simp only [List.any_append, List.any_cons, h1, h2, Re.greedy, ho]
    cases l.greedy <;> cases r.greedy <;> rfl

theorem denotes_greedy {ts : List Tok} {r : Option Re} (h : Denotes ts r) :
    nonGreedy ts = !rGreedy r := by
  cases h with
  | empty b e hb he => simp [nonGreedy, hb, he, rGreedy]
  | re b e ts r hb he h =>
    have := derives_greedy h
    unfold nonGreedy at *
    simp only [List.any_append, List.any_cons, List.any_nil, List.cons_append, this, hb, he, rGreedy]
    cases r.greedy <;> rfl

/-- `finish` and `fixup_bol` after the body of the regex has been parsed. -/
def wrapUp (tr : Traits) (info : RuleInfo) (g : Greedy) (seenBol : Bool) (p : PState) :
    M (PState × Tree) := do
  let (p, root) ← p.finish info g
  if seenBol then p.fixupBol tr root else .ok (p, root)

theorem parse_eq (tr : Traits) (p : PState) (t0 t1 : Tok) (rest : List Tok) (info : RuleInfo)
    (seenBol : Bool) : PState.parse tr p (t0 :: t1 :: rest) info seenBol =
      (PState.loop tr (16 * (t0 :: t1 :: rest).length + 16) p [t0] (t1 :: rest) >>=
        wrapUp tr info (if nonGreedy (t0 :: t1 :: rest) then .no else .yes) seenBol) := by
  unfold PState.parse
  cases rest <;> rfl

/-- `parse` on one rule. -/
theorem parse_rule (tr : Traits) (W : Option Re → List Sym → Prop)
    (cost : Token → Nat) (p : PState)
    (regex : List Tok) (r : Option Re) (info : RuleInfo) (seenBol : Bool)
    (hd : Denotes regex r) (hp : p.trees = [])
    (hact : ∀ r', r = some r' → Built tr (fun s => [s]) (W (some r')) (r'.lookups cost) (!r'.noBol) (!r'.noEol) p
      (PState.act tr r' p))
    (hnone : W none = fun w => w = [])
    (htail : ∀ w, W r w → Sym.bol ∉ w.tail)
    (hcs : CsInv p.charsets) (hlen : p.charsets.length + rcost cost r + 2 ≤ tr.npos)
    (hnpos : 2 < tr.npos) :
    ∃ (p' : PState) (root : Tree) (f : Nat), PState.parse tr p regex info seenBol = .ok (p', root) ∧
      p'.trees = [] ∧ (∃ x, p'.heap = p.heap ++ x) ∧ Grows tr (rcost cost r) p.charsets p'.charsets ∧
      (rNoEol r = true → p'.crId = p.crId ∧ p'.nlId = p.nlId) ∧
      (∀ n ∈ root.pos, p.heap.length ≤ n) ∧
      ∀ m, IdsOk tr m → (∀ c ∈ p'.charsets, c ∈ m) → (∀ c ∈ m, GoodTok c.1) →
        RuleTree tr m p'.heap (seenBol || !rNoBol r) (!rNoEol r) root f
          (.fin info.id info.userId info.uniqueId info.nextDfa info.pushDfa info.popDfa
            (if rGreedy r then .yes else .no)) (FixBol seenBol (W r)) := by
  -- the body
  have hbody : ∃ p1 : PState, PState.parse tr p regex info seenBol =
      wrapUp tr info (if rGreedy r then .yes else .no) seenBol p1 ∧
      Grows tr (rcost cost r) p.charsets p1.charsets ∧
      (rNoEol r = true → p1.crId = p.crId ∧ p1.nlId = p.nlId) ∧
      ∀ m, IdsOk tr m → (∀ c ∈ p1.charsets, c ∈ m) → (∀ c ∈ m, GoodTok c.1) →
        ∃ h' root, p1.finish info (if rGreedy r then .yes else .no) =
          .ok ({ p1 with heap := h', trees := [] }, root) ∧
          (∃ x, h' = p.heap ++ x) ∧ (∀ n ∈ root.pos, p.heap.length ≤ n) ∧
          RuleTree tr m h' (!rNoBol r) (!rNoEol r) root p1.heap.length
            (.fin info.id info.userId info.uniqueId info.nextDfa info.pushDfa info.popDfa
              (if rGreedy r then .yes else .no)) (W r) := by
    have hg := denotes_greedy hd
    have hg' : (if nonGreedy regex then Greedy.no else .yes) = if rGreedy r then .yes else .no := by
      rw [hg]; cases rGreedy r <;> rfl
    cases hd with
    | empty b e hb he =>
      refine ⟨p, ?_, .refl _ _, fun _ => ⟨rfl, rfl⟩, fun m _ _ _ => ?_⟩
      · rw [parse_eq, hg']
        have : PState.loop tr (16 * [b, e].length + 16) p [b] [e] = .ok p := by
          obtain ⟨bt, bx, bs⟩ := b
          obtain ⟨et, ex, es⟩ := e
          simp only at hb he
          subst hb he
          rfl
        rw [this]; rfl
      · rw [hnone]
        exact finish_none tr p info _ _ _ m hp
    | re b e ts r hb he h =>
      obtain ⟨p1, t, a1, a2, a3, a4, a5, a6, a7⟩ := hact r rfl
      refine ⟨p1, ?_, a4, fun hn => a5 (by simpa [rNoEol] using hn), fun m hm hs hgood => ?_⟩
      · have hl : PState.loop tr (16 * (b :: ts ++ [e]).length + 16) p [b] (ts ++ [e]) = .ok p1 := by
          rw [PState.parseLoop_derives tr ts r h b e hb he p _ (by simp; omega), a1]
        cases ts with
        | nil =>
          show PState.parse tr p (b :: e :: []) info seenBol = _
          rw [parse_eq, show (b :: e :: [] : List Tok) = b :: [] ++ [e] from rfl, hg']
          have hl' : PState.loop tr (16 * (b :: [] ++ [e]).length + 16) p [b] [e] = .ok p1 := hl
          rw [hl']; rfl
        | cons t1 ts =>
          show PState.parse tr p (b :: t1 :: (ts ++ [e])) info seenBol = _
          rw [parse_eq, show (b :: t1 :: (ts ++ [e])) = b :: (t1 :: ts) ++ [e] from rfl, hg']
          have hl' : PState.loop tr (16 * (b :: (t1 :: ts) ++ [e]).length + 16) p [b]
            (t1 :: (ts ++ [e])) = .ok p1 := hl
          rw [hl']; rfl
      · refine finish_some tr p p1 t info _ _ _ m _ (by rw [a2, hp]) a3 hgood ?_
          ((a7 m hm hs).trans (img_single _)) htail
        intro n hn tk htk
        rcases a6 n hn tk htk with h | h | h | ⟨c, hc, h⟩
        · exact .inl h
        · exact .inr (.inl h)
        · exact .inr (.inr (.inl h))
        · exact .inr (.inr (.inr ⟨c, hs c hc, h⟩))
  obtain ⟨p1, b1, b2, b3, b4⟩ := hbody
  obtain ⟨c1, c2⟩ := b2.inv hcs (by omega)
  have hm0 : IdsOk tr p1.charsets := c1.idsOk (by omega) hnpos
  obtain ⟨h0, root0, d1, d2, d3, d4⟩ := b4 p1.charsets hm0 (fun _ h => h) c1.good
  cases seenBol with
  | false =>
    refine ⟨{ p1 with heap := h0, trees := [] }, root0, p1.heap.length, ?_, rfl, d2, b2, b3, d3,
      fun m hm hs hgood => ?_⟩
    · rw [b1]; unfold wrapUp; rw [d1]; rfl
    · obtain ⟨h', root', e1, e2, e3, e4⟩ := b4 m hm hs hgood
      rw [d1] at e1
      injection e1 with e1
      injection e1 with e1 e1'
      injection e1 with e1
      subst e1 e1'
      have : FixBol false (W r) = W r := by
        funext w; simp [FixBol]
      rw [this]
      exact e4
  | true =>
    obtain ⟨h2, root2, f1, f2, f3, f4⟩ := fixupBol_spec tr p.heap
      { p1 with heap := h0, trees := [] } root0 p1.heap.length _ _ _ p1.charsets _ hm0 d2 d3 d4
    refine ⟨{ p1 with heap := h2, trees := [] }, root2, p1.heap.length, ?_, rfl, f2, b2, b3, f3,
      fun m hm hs hgood => ?_⟩
    · rw [b1]; unfold wrapUp; rw [d1]; exact f1
    · obtain ⟨h', root', e1, e2, e3, e4⟩ := b4 m hm hs hgood
      rw [d1] at e1
      injection e1 with e1
      injection e1 with e1 e1'
      injection e1 with e1
      subst e1 e1'
      obtain ⟨h3, root3, g1, g2, g3, g4⟩ := fixupBol_spec tr p.heap
        { p1 with heap := h0, trees := [] } root0 p1.heap.length _ _ _ m _ hm d2 d3 e4
      rw [f1] at g1
      injection g1 with g1
      injection g1 with g1 g1'
      injection g1 with g1
      subst g1 g1'
      rw [Bool.true_or]
      exact g4

end Lexertl
