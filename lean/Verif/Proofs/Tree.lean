import Verif.Model.Tree

/-
Syntax trees: language of a tree, position automaton (first/last/follow), and
the effect of the tree constructors on the node heap.
-/
namespace Lexertl

namespace Tree

/-- Heap numbers of the leaf and end nodes of a tree. -/
def pos : Tree → List Nat
  | leaf n _ => [n]
  | fin n => [n]
  | seq l r => l.pos ++ r.pos
  | sel l r => l.pos ++ r.pos
  | iter t _ => t.pos

/-- The tree contains no end node. -/
def noFin : Tree → Bool
  | leaf _ _ => true
  | fin _ => false
  | seq l r => l.noFin && r.noFin
  | sel l r => l.noFin && r.noFin
  | iter t _ => t.noFin

/-- Positions appended to `_followpos` of node `n` while the tree was built. -/
def follow : Tree → Nat → List Nat
  | leaf _ _, _ => []
  | fin _, _ => []
  | seq l r, n => l.follow n ++ r.follow n ++ (if n ∈ l.lastpos then r.firstpos else [])
  | sel l r, n => l.follow n ++ r.follow n
  | iter t _, n => t.follow n ++ (if n ∈ t.lastpos then t.firstpos else [])

theorem firstpos_sub (t : Tree) : ∀ n ∈ t.firstpos, n ∈ t.pos := by
  induction t with
  | leaf n null => cases null <;> simp [firstpos, pos]
  | fin n => simp [firstpos, pos]
  | seq l r ihl ihr =>
    intro n hn
    simp only [firstpos, List.mem_append, pos] at *
    rcases hn with h | h
    · exact .inl (ihl n h)
    · split at h
      · exact .inr (ihr n h)
      · cases h
  | sel l r ihl ihr =>
    intro n hn
    simp only [firstpos, List.mem_append, pos] at *
    exact hn.imp (ihl n) (ihr n)
  | iter t g ih => exact ih

theorem lastpos_sub (t : Tree) : ∀ n ∈ t.lastpos, n ∈ t.pos := by
  induction t with
  | leaf n null => cases null <;> simp [lastpos, pos]
  | fin n => simp [lastpos, pos]
  | seq l r ihl ihr =>
    intro n hn
    simp only [lastpos, List.mem_append, pos] at *
    rcases hn with h | h
    · split at h
      · exact .inl (ihl n h)
      · cases h
    · exact .inr (ihr n h)
  | sel l r ihl ihr =>
    intro n hn
    simp only [lastpos, List.mem_append, pos] at *
    exact hn.imp (ihl n) (ihr n)
  | iter t g ih => exact ih

theorem follow_sub (t : Tree) : ∀ n, ∀ q ∈ t.follow n, q ∈ t.pos := by
  induction t with
  | leaf n null => simp [follow]
  | fin n => simp [follow]
  | seq l r ihl ihr =>
    intro n q hq
    simp only [follow, List.mem_append, pos] at *
    rcases hq with (h | h) | h
    · exact .inl (ihl n q h)
    · exact .inr (ihr n q h)
    · split at h
      · exact .inr (firstpos_sub r q h)
      · cases h
  | sel l r ihl ihr =>
    intro n q hq
    simp only [follow, List.mem_append, pos] at *
    exact hq.imp (ihl n q) (ihr n q)
  | iter t g ih =>
    intro n q hq
    simp only [follow, List.mem_append, pos] at *
    rcases hq with h | h
    · exact ih n q h
    · split at h
      · exact firstpos_sub t q h
      · cases h

theorem follow_out (t : Tree) (n : Nat) (h : n ∉ t.pos) : t.follow n = [] := by
  induction t with
  | leaf => rfl
  | fin => rfl
  | seq l r ihl ihr =>
    simp only [pos, List.mem_append, not_or] at h
    simp only [follow, ihl h.1, ihr h.2]
    rw [if_neg fun h' => h.1 (lastpos_sub l n h')]; rfl
  | sel l r ihl ihr =>
    simp only [pos, List.mem_append, not_or] at h
    simp [follow, ihl h.1, ihr h.2]
  | iter t g ih =>
    simp only [pos] at h
    simp only [follow, ih h]
    rw [if_neg fun h' => h (lastpos_sub t n h')]; rfl

theorem firstpos_nodup (t : Tree) (h : t.pos.Nodup) : t.firstpos.Nodup := by
  induction t with
  | leaf n null => cases null <;> simp [firstpos]
  | fin n => simp [firstpos]
  | seq l r ihl ihr =>
    simp only [pos, List.nodup_append, firstpos] at *
    refine ⟨ihl h.1, by split; exact ihr h.2.1; simp, fun a ha b hb => ?_⟩
    split at hb
    · exact h.2.2 a (firstpos_sub l a ha) b (firstpos_sub r b hb)
    · cases hb
  | sel l r ihl ihr =>
    simp only [pos, List.nodup_append, firstpos] at *
    exact ⟨ihl h.1, ihr h.2.1, fun a ha b hb =>
      h.2.2 a (firstpos_sub l a ha) b (firstpos_sub r b hb)⟩
  | iter t g ih => exact ih h

theorem lastpos_nodup (t : Tree) (h : t.pos.Nodup) : t.lastpos.Nodup := by
  induction t with
  | leaf n null => cases null <;> simp [lastpos]
  | fin n => simp [lastpos]
  | seq l r ihl ihr =>
    simp only [pos, List.nodup_append, lastpos] at *
    refine ⟨by split; exact ihl h.1; simp, ihr h.2.1, fun a ha b hb => ?_⟩
    split at ha
    · exact h.2.2 a (lastpos_sub l a ha) b (lastpos_sub r b hb)
    · cases ha
  | sel l r ihl ihr =>
    simp only [pos, List.nodup_append, lastpos] at *
    exact ⟨ihl h.1, ihr h.2.1, fun a ha b hb =>
      h.2.2 a (lastpos_sub l a ha) b (lastpos_sub r b hb)⟩
  | iter t g ih => exact ih h

end Tree

/-- Finite concatenations of words of `L`. -/
inductive Star {σ : Type} (L : List σ → Prop) : List σ → Prop
  | nil : Star L []
  | app (u v : List σ) : L u → Star L v → Star L (u ++ v)

namespace Tree
variable {σ : Type}

/-- Words of a tree whose node `n` reads the symbols `s` with `A n s`. -/
def lang (A : Nat → σ → Prop) : Tree → List σ → Prop
  | leaf n null, w => if null then w = [] else ∃ s, w = [s] ∧ A n s
  | fin n, w => ∃ s, w = [s] ∧ A n s
  | seq l r, w => ∃ u v, w = u ++ v ∧ l.lang A u ∧ r.lang A v
  | sel l r, w => l.lang A w ∨ r.lang A w
  | iter t _, w => Star (t.lang A) w

theorem nullable_iff (A : Nat → σ → Prop) (t : Tree) : t.nullable = true ↔ t.lang A [] := by
  induction t with
  | leaf n null => cases null <;> simp [nullable, lang]
  | fin n => simp [nullable, lang]
  | seq l r ihl ihr =>
    simp only [nullable, Bool.and_eq_true, ihl, ihr, lang]
    constructor
    · rintro ⟨a, b⟩; exact ⟨[], [], rfl, a, b⟩
    · rintro ⟨u, v, h, a, b⟩
      obtain ⟨rfl, rfl⟩ := List.append_eq_nil_iff.1 h.symm
      exact ⟨a, b⟩
  | sel l r ihl ihr => simp [nullable, Bool.or_eq_true, ihl, ihr, lang]
  | iter t g ih => simp [nullable, lang, Star.nil]

/-- `Run F A S w q`: a path through positions, starting in `S`, moving along `F`,
reading `w`, whose last position is `q`. -/
inductive Run (F : Nat → List Nat) (A : Nat → σ → Prop) : List Nat → List σ → Nat → Prop
  | one (S : List Nat) (p : Nat) (s : σ) : p ∈ S → A p s → Run F A S [s] p
  | cons (S : List Nat) (p : Nat) (s : σ) (w : List σ) (q : Nat) :
      p ∈ S → A p s → Run F A (F p) w q → Run F A S (s :: w) q

variable {A : Nat → σ → Prop}

theorem Run.mono {F G : Nat → List Nat} {S T : List Nat} {w : List σ} {q : Nat}
    (h : Run F A S w q) (hF : ∀ p, ∀ x ∈ F p, x ∈ G p) (hS : ∀ x ∈ S, x ∈ T) :
    Run G A T w q := by
  induction h generalizing T with
  | one S p s hp ha => exact .one _ p s (hS p hp) ha
  | cons S p s w q hp ha _ ih => exact .cons _ p s w q (hS p hp) ha (ih (hF p))

theorem Run.append {F : Nat → List Nat} {S T : List Nat} {u v : List σ} {p q : Nat}
    (h : Run F A S u p) (hT : ∀ x ∈ T, x ∈ F p) (h' : Run F A T v q) :
    Run F A S (u ++ v) q := by
  induction h with
  | one S p s hp ha => exact .cons _ p s v q hp ha (h'.mono (fun _ _ h => h) hT)
  | cons S p s w q' hp ha _ ih => exact .cons _ p s _ q hp ha (ih hT)

theorem Run.inv {F : Nat → List Nat} {S : List Nat} {w : List σ} {q : Nat}
    (h : Run F A S w q) : ∃ p s w', p ∈ S ∧ A p s ∧ w = s :: w' ∧
      ((w' = [] ∧ q = p) ∨ Run F A (F p) w' q) := by
  induction h with
  | one S p s hp ha => exact ⟨p, s, [], hp, ha, rfl, .inl ⟨rfl, rfl⟩⟩
  | cons S p s w q hp ha h _ => exact ⟨p, s, w, hp, ha, rfl, .inr h⟩

theorem Run.of_inv {F : Nat → List Nat} {S : List Nat} {p q : Nat} {s : σ} {w : List σ}
    (hp : p ∈ S) (ha : A p s) (h : (w = [] ∧ q = p) ∨ Run F A (F p) w q) :
    Run F A S (s :: w) q := by
  rcases h with ⟨rfl, rfl⟩ | h
  · exact .one _ _ s hp ha
  · exact .cons _ p s w q hp ha h

theorem Run.union {F : Nat → List Nat} {S T : List Nat} {w : List σ} {q : Nat}
    (h : Run F A (S ++ T) w q) : Run F A S w q ∨ Run F A T w q := by
  obtain ⟨p, s, w', hp, ha, rfl, h2⟩ := h.inv
  rcases List.mem_append.1 hp with h1 | h1
  · exact .inl (.of_inv h1 ha h2)
  · exact .inr (.of_inv h1 ha h2)

theorem Run.ne_nil {F : Nat → List Nat} {S : List Nat} {w : List σ} {q : Nat}
    (h : Run F A S w q) : w ≠ [] := by
  obtain ⟨_, _, _, _, _, rfl, _⟩ := h.inv; simp

theorem run_nil {F : Nat → List Nat} {S : List Nat} {q : Nat} : ¬ Run F A S [] q :=
  fun h => h.ne_nil rfl

theorem run_empty {F : Nat → List Nat} {w : List σ} {q : Nat} : ¬ Run F A [] w q := by
  intro h
  obtain ⟨_, _, _, hp, _⟩ := h.inv
  cases hp

/-- Last position of a path. -/
theorem Run.last_mem {F : Nat → List Nat} {S : List Nat} {w : List σ} {q : Nat}
    (h : Run F A S w q) (P : Nat → Prop) (hS : ∀ x ∈ S, P x) (hF : ∀ p, ∀ x ∈ F p, P x) :
    P q := by
  induction h with
  | one S p s hp ha => exact hS p hp
  | cons S p s w q hp ha _ ih => exact ih (hF p)

theorem run_seq_split {l r : Tree} (hd : ∀ a ∈ l.pos, a ∉ r.pos) {S : List Nat} {w : List σ}
    {q : Nat} (h : Run (seq l r).follow A S w q) :
    ∀ Sl Sr, (∀ x ∈ S, x ∈ Sl ∨ x ∈ Sr) → (∀ x ∈ Sl, x ∈ l.pos) → (∀ x ∈ Sr, x ∈ r.pos) →
      (q ∈ l.pos ∧ Run l.follow A Sl w q) ∨ (q ∈ r.pos ∧ Run r.follow A Sr w q) ∨
      (q ∈ r.pos ∧ ∃ u v p, w = u ++ v ∧ Run l.follow A Sl u p ∧ p ∈ l.lastpos ∧
        Run r.follow A r.firstpos v q) := by
  induction h with
  | one S p s hp ha =>
    intro Sl Sr hS hl hr
    rcases hS p hp with h | h
    · exact .inl ⟨hl p h, .one _ p s h ha⟩
    · exact .inr (.inl ⟨hr p h, .one _ p s h ha⟩)
  | cons S p s w q hp ha h ih =>
    intro Sl Sr hS hl hr
    rcases hS p hp with h1 | h1
    · have hpr : r.follow p = [] := follow_out r p (hd p (hl p h1))
      rcases ih (l.follow p) (if p ∈ l.lastpos then r.firstpos else [])
        (by
          intro x hx
          simp only [follow, hpr, List.append_nil, List.mem_append] at hx
          exact hx)
        (follow_sub l p)
        (by intro x hx; split at hx; exact firstpos_sub r x hx; cases hx) with
        ⟨h2, h3⟩ | ⟨h2, h3⟩ | ⟨h2, u, v, p', rfl, h4, h5, h6⟩
      · exact .inl ⟨h2, .cons _ p s w q h1 ha h3⟩
      · split at h3
        · rename_i hlast
          exact .inr (.inr ⟨h2, [s], w, p, rfl, .one _ p s h1 ha, hlast, h3⟩)
        · exact (run_empty h3).elim
      · exact .inr (.inr ⟨h2, s :: u, v, p', rfl, .cons _ p s u p' h1 ha h4, h5, h6⟩)
    · have hpl : p ∉ l.pos := fun h => hd p h (hr p h1)
      have h2 : l.follow p = [] := follow_out l p hpl
      have h3 : p ∉ l.lastpos := fun h => hpl (lastpos_sub l p h)
      rcases ih [] (r.follow p)
        (by
          intro x hx
          simp only [follow, h2, List.nil_append, if_neg h3, List.append_nil] at hx
          exact .inr hx)
        (by simp) (follow_sub r p) with ⟨_, h4⟩ | ⟨h4, h5⟩ | ⟨_, u, v, p', rfl, h4, _⟩
      · exact (run_empty h4).elim
      · exact .inr (.inl ⟨h4, .cons _ p s w q h1 ha h5⟩)
      · exact (run_empty h4).elim

theorem run_sel_split {l r : Tree} (hd : ∀ a ∈ l.pos, a ∉ r.pos) {S : List Nat} {w : List σ}
    {q : Nat} (h : Run (sel l r).follow A S w q) :
    ((∀ x ∈ S, x ∈ l.pos) → q ∈ l.pos ∧ Run l.follow A S w q) ∧
    ((∀ x ∈ S, x ∈ r.pos) → q ∈ r.pos ∧ Run r.follow A S w q) := by
  induction h with
  | one S p s hp ha =>
    exact ⟨fun h => ⟨h p hp, .one _ p s hp ha⟩, fun h => ⟨h p hp, .one _ p s hp ha⟩⟩
  | cons S p s w q hp ha h ih =>
    refine ⟨fun hS => ?_, fun hS => ?_⟩
    · have : r.follow p = [] := follow_out r p (hd p (hS p hp))
      have h2 : (sel l r).follow p = l.follow p := by simp [follow, this]
      rw [h2] at ih
      obtain ⟨a, b⟩ := ih.1 (follow_sub l p)
      exact ⟨a, .cons _ p s w q hp ha b⟩
    · have : l.follow p = [] := follow_out l p fun h => hd p h (hS p hp)
      have h2 : (sel l r).follow p = r.follow p := by simp [follow, this]
      rw [h2] at ih
      obtain ⟨a, b⟩ := ih.2 (follow_sub r p)
      exact ⟨a, .cons _ p s w q hp ha b⟩

theorem run_iter_split {t : Tree} {g : Greedy} {S : List Nat} {w : List σ} {q : Nat}
    (h : Run (iter t g).follow A S w q) :
    Run t.follow A S w q ∨ ∃ u v p, w = u ++ v ∧ Run t.follow A S u p ∧ p ∈ t.lastpos ∧
      Run (iter t g).follow A t.firstpos v q := by
  induction h with
  | one S p s hp ha => exact .inl (.one _ p s hp ha)
  | cons S p s w q hp ha h ih =>
    have h' : Run (iter t g).follow A (t.follow p ++
      (if p ∈ t.lastpos then t.firstpos else [])) w q := h
    by_cases hl : p ∈ t.lastpos
    · rw [if_pos hl] at h'
      simp only [follow, if_pos hl] at ih
      rcases ih with h1 | ⟨u, v, p', rfl, h1, h2, h3⟩
      · rcases h1.union with h1 | h1
        · exact .inl (.cons _ p s w q hp ha h1)
        · refine .inr ⟨[s], w, p, rfl, .one _ p s hp ha, hl, h1.mono ?_ fun _ h => h⟩
          intro a x hx; simp only [follow, List.mem_append]; exact .inl hx
      · rcases h1.union with h1 | h1
        · exact .inr ⟨s :: u, v, p', rfl, .cons _ p s u p' hp ha h1, h2, h3⟩
        · refine .inr ⟨[s], u ++ v, p, rfl, .one _ p s hp ha, hl, ?_⟩
          refine Run.append (F := (iter t g).follow) (p := p') (T := t.firstpos)
            (h1.mono ?_ fun _ h => h) ?_ h3
          · intro a x hx; simp only [follow, List.mem_append]; exact .inl hx
          · intro x hx; simp only [follow, List.mem_append, if_pos h2]; exact .inr hx
    · simp only [follow, if_neg hl, List.append_nil] at ih
      rcases ih with h1 | ⟨u, v, p', rfl, h1, h2, h3⟩
      · exact .inl (.cons _ p s w q hp ha h1)
      · exact .inr ⟨s :: u, v, p', rfl, .cons _ p s u p' hp ha h1, h2, h3⟩

theorem follow_seq_l {l r : Tree} : ∀ p, ∀ x ∈ l.follow p, x ∈ (seq l r).follow p := by
  intro p x hx; simp only [follow, List.mem_append]; exact .inl (.inl hx)
theorem follow_seq_r {l r : Tree} : ∀ p, ∀ x ∈ r.follow p, x ∈ (seq l r).follow p := by
  intro p x hx; simp only [follow, List.mem_append]; exact .inl (.inr hx)
theorem follow_sel_l {l r : Tree} : ∀ p, ∀ x ∈ l.follow p, x ∈ (sel l r).follow p := by
  intro p x hx; simp only [follow, List.mem_append]; exact .inl hx
theorem follow_sel_r {l r : Tree} : ∀ p, ∀ x ∈ r.follow p, x ∈ (sel l r).follow p := by
  intro p x hx; simp only [follow, List.mem_append]; exact .inr hx
theorem follow_iter {t : Tree} {g : Greedy} :
    ∀ p, ∀ x ∈ t.follow p, x ∈ (iter t g).follow p := by
  intro p x hx; simp only [follow, List.mem_append]; exact .inl hx

theorem star_iff {L : List σ → Prop} {w : List σ} :
    Star L w ↔ w = [] ∨ ∃ u v, w = u ++ v ∧ u ≠ [] ∧ L u ∧ Star L v := by
  constructor
  · intro h
    induction h with
    | nil => exact .inl rfl
    | app u v hu hv ih =>
      by_cases h : u = []
      · subst h; exact ih
      · exact .inr ⟨u, v, rfl, h, hu, hv⟩
  · rintro (rfl | ⟨u, v, rfl, _, h1, h2⟩)
    · exact .nil
    · exact .app u v h1 h2

/-- Glushkov: the words of a tree with distinct nodes are the words of the paths
from its first to its last positions, plus the empty word if it is nullable. -/
theorem lang_iff_run (t : Tree) (hn : t.pos.Nodup) (w : List σ) :
    t.lang A w ↔ (w = [] ∧ t.nullable = true) ∨
      ∃ q ∈ t.lastpos, Run t.follow A t.firstpos w q := by
  induction t generalizing w with
  | leaf n null =>
    cases null with
    | true => simp [lang, nullable, lastpos]
    | false =>
      simp only [lang, nullable, lastpos, firstpos]
      constructor
      · rintro ⟨s, rfl, h⟩
        exact .inr ⟨n, by simp, .one _ n s (by simp) h⟩
      · rintro (h | ⟨q, hq, h⟩)
        · simp at h
        · obtain ⟨p, s, w', hp, ha, rfl, ⟨rfl, _⟩ | h⟩ := h.inv
          · simp at hp; subst hp; exact ⟨s, rfl, ha⟩
          · exact (run_empty h).elim
  | fin n =>
    simp only [lang, nullable, lastpos, firstpos]
    constructor
    · rintro ⟨s, rfl, h⟩
      exact .inr ⟨n, by simp, .one _ n s (by simp) h⟩
    · rintro (h | ⟨q, hq, h⟩)
      · simp at h
      · obtain ⟨p, s, w', hp, ha, rfl, ⟨rfl, _⟩ | h⟩ := h.inv
        · simp at hp; subst hp; exact ⟨s, rfl, ha⟩
        · exact (run_empty h).elim
  | seq l r ihl ihr =>
    simp only [pos, List.nodup_append] at hn
    have hd : ∀ a ∈ l.pos, a ∉ r.pos := fun a ha hb => hn.2.2 a ha a hb rfl
    simp only [lang]
    constructor
    · rintro ⟨u, v, rfl, hu, hv⟩
      rw [ihl hn.1] at hu
      rw [ihr hn.2.1] at hv
      rcases hu with ⟨rfl, hu⟩ | ⟨p, hp, hu⟩
      · rcases hv with ⟨rfl, hv⟩ | ⟨q, hq, hv⟩
        · exact .inl ⟨rfl, by simp [nullable, hu, hv]⟩
        · refine .inr ⟨q, ?_, hv.mono follow_seq_r ?_⟩
          · simp only [lastpos, List.mem_append]; exact .inr hq
          · intro x hx; simp only [firstpos, List.mem_append, hu, if_true]; exact .inr hx
      · rcases hv with ⟨rfl, hv⟩ | ⟨q, hq, hv⟩
        · rw [List.append_nil]
          refine .inr ⟨p, ?_, hu.mono follow_seq_l ?_⟩
          · simp only [lastpos, List.mem_append, hv, if_true]; exact .inl hp
          · intro x hx; simp only [firstpos, List.mem_append]; exact .inl hx
        · refine .inr ⟨q, ?_, Run.append (p := p) (T := r.firstpos) (hu.mono follow_seq_l ?_) ?_
            (hv.mono follow_seq_r fun _ h => h)⟩
          · simp only [lastpos, List.mem_append]; exact .inr hq
          · intro x hx; simp only [firstpos, List.mem_append]; exact .inl hx
          · intro x hx; simp only [follow, List.mem_append, if_pos hp]; exact .inr hx
    · rintro (⟨rfl, h⟩ | ⟨q, hq, h⟩)
      · simp only [nullable, Bool.and_eq_true] at h
        exact ⟨[], [], rfl, (ihl hn.1 []).2 (.inl ⟨rfl, h.1⟩), (ihr hn.2.1 []).2 (.inl ⟨rfl, h.2⟩)⟩
      · rcases run_seq_split hd h l.firstpos (if l.nullable then r.firstpos else [])
          (by intro x hx; simpa only [firstpos, List.mem_append] using hx) (firstpos_sub l)
          (by intro x hx; split at hx; exact firstpos_sub r x hx; cases hx) with
          ⟨h1, h2⟩ | ⟨h1, h2⟩ | ⟨h1, u, v, p, rfl, h2, h3, h4⟩
        · have hq' : r.nullable = true ∧ q ∈ l.lastpos := by
            simp only [lastpos, List.mem_append] at hq
            rcases hq with hq | hq
            · split at hq
              · rename_i hh; exact ⟨hh, hq⟩
              · cases hq
            · exact (hd q h1 (lastpos_sub r q hq)).elim
          exact ⟨w, [], by simp, (ihl hn.1 w).2 (.inr ⟨q, hq'.2, h2⟩),
            (ihr hn.2.1 []).2 (.inl ⟨rfl, hq'.1⟩)⟩
        · split at h2
          · rename_i hnull
            have hq' : q ∈ r.lastpos := by
              simp only [lastpos, List.mem_append] at hq
              rcases hq with hq | hq
              · split at hq
                · exact (hd q (lastpos_sub l q hq) h1).elim
                · cases hq
              · exact hq
            exact ⟨[], w, rfl, (ihl hn.1 []).2 (.inl ⟨rfl, hnull⟩),
              (ihr hn.2.1 w).2 (.inr ⟨q, hq', h2⟩)⟩
          · exact (run_empty h2).elim
        · have hq' : q ∈ r.lastpos := by
            simp only [lastpos, List.mem_append] at hq
            rcases hq with hq | hq
            · split at hq
              · exact (hd q (lastpos_sub l q hq) h1).elim
              · cases hq
            · exact hq
          exact ⟨u, v, rfl, (ihl hn.1 u).2 (.inr ⟨p, h3, h2⟩), (ihr hn.2.1 v).2 (.inr ⟨q, hq', h4⟩)⟩
  | sel l r ihl ihr =>
    simp only [pos, List.nodup_append] at hn
    have hd : ∀ a ∈ l.pos, a ∉ r.pos := fun a ha hb => hn.2.2 a ha a hb rfl
    simp only [lang, ihl hn.1, ihr hn.2.1, nullable, Bool.or_eq_true]
    constructor
    · rintro ((⟨rfl, h⟩ | ⟨q, hq, h⟩) | (⟨rfl, h⟩ | ⟨q, hq, h⟩))
      · exact .inl ⟨rfl, .inl h⟩
      · refine .inr ⟨q, ?_, h.mono follow_sel_l ?_⟩
        · simp only [lastpos, List.mem_append]; exact .inl hq
        · intro x hx; simp only [firstpos, List.mem_append]; exact .inl hx
      · exact .inl ⟨rfl, .inr h⟩
      · refine .inr ⟨q, ?_, h.mono follow_sel_r ?_⟩
        · simp only [lastpos, List.mem_append]; exact .inr hq
        · intro x hx; simp only [firstpos, List.mem_append]; exact .inr hx
    · rintro (⟨rfl, h | h⟩ | ⟨q, hq, h⟩)
      · exact .inl (.inl ⟨rfl, h⟩)
      · exact .inr (.inl ⟨rfl, h⟩)
      · have h' : Run (sel l r).follow A (l.firstpos ++ r.firstpos) w q := h
        simp only [lastpos, List.mem_append] at hq
        rcases h'.union with h | h
        · obtain ⟨a, b⟩ := (run_sel_split hd h).1 (firstpos_sub l)
          refine .inl (.inr ⟨q, ?_, b⟩)
          exact hq.resolve_right fun h => hd q a (lastpos_sub r q h)
        · obtain ⟨a, b⟩ := (run_sel_split hd h).2 (firstpos_sub r)
          refine .inr (.inr ⟨q, ?_, b⟩)
          exact hq.resolve_left fun h => hd q (lastpos_sub l q h) a
  | iter t g ih =>
    simp only [lang, nullable, lastpos, firstpos, pos] at *
    constructor
    · intro h
      suffices H : w ≠ [] → ∃ q ∈ t.lastpos, Run (iter t g).follow A t.firstpos w q by
        by_cases hw : w = []
        · exact .inl ⟨hw, trivial⟩
        · exact .inr (H hw)
      induction h with
      | nil => intro h; exact absurd rfl h
      | app u v hu hv ih2 =>
        intro hne
        rw [ih hn] at hu
        rcases hu with ⟨rfl, _⟩ | ⟨p, hp, hu⟩
        · exact ih2 hne
        · by_cases hv' : v = []
          · subst hv'; rw [List.append_nil]
            exact ⟨p, hp, hu.mono follow_iter fun _ h => h⟩
          · obtain ⟨q, hq, h⟩ := ih2 hv'
            refine ⟨q, hq, Run.append (p := p) (T := t.firstpos) (hu.mono follow_iter fun _ h => h) ?_ h⟩
            intro x hx; simp only [follow, List.mem_append, if_pos hp]; exact .inr hx
    · rintro (⟨rfl, _⟩ | ⟨q, hq, h⟩)
      · exact .nil
      · generalize hk : w.length = k
        induction k using Nat.strongRecOn generalizing w with
        | ind k ihk =>
          rcases run_iter_split h with h1 | ⟨u, v, p, rfl, h1, h2, h3⟩
          · rw [← List.append_nil w]
            exact .app w [] ((ih hn w).2 (.inr ⟨q, hq, h1⟩)) .nil
          · have hu := h1.ne_nil
            refine .app u v ((ih hn u).2 (.inr ⟨p, h2, h1⟩)) (ihk v.length ?_ v h3 rfl)
            subst hk
            have : 0 < u.length := List.length_pos_iff.2 hu
            simp; omega

end Tree
end Lexertl
