import Verif.Proofs.Parser

/-
The tree-building operations of the parser on a freshly built tree: shape,
heap invariant and language of the result.
-/
namespace Lexertl
open Spec

/-- Only leaves in `P` were touched between `h` and `h'`, and those only in
greediness and follow positions; the heap may have grown. -/
def Frame (P : List Nat) (h h' : Heap) : Prop :=
  h.length ≤ h'.length ∧ ∀ n, n < h.length → h'.tokOf n = h.tokOf n ∧ h'.finOf n = h.finOf n ∧
    (n ∉ P → h'.greedyOf n = h.greedyOf n ∧ h'.fol n = h.fol n)

theorem Frame.refl (P : List Nat) (h : Heap) : Frame P h h :=
  ⟨Nat.le_refl _, fun _ _ => ⟨rfl, rfl, fun _ => ⟨rfl, rfl⟩⟩⟩

theorem Frame.append (P : List Nat) (h e : Heap) : Frame P h (h ++ e) :=
  ⟨by simp, fun n hn =>
    let o := Heap.obs_append_left h e n hn
    ⟨o.1, o.2.2.1, fun _ => ⟨o.2.1, o.2.2.2⟩⟩⟩

/-- Sequential composition; nodes allocated in between may be touched freely. -/
theorem Frame.trans {P Q : List Nat} {h h1 h2 : Heap} (a : Frame P h h1) (b : Frame Q h1 h2)
    (hq : ∀ n ∈ Q, n < h.length → n ∈ P) : Frame P h h2 := by
  refine ⟨Nat.le_trans a.1 b.1, fun n hn => ?_⟩
  have a' := a.2 n hn
  have b' := b.2 n (Nat.lt_of_lt_of_le hn a.1)
  refine ⟨b'.1.trans a'.1, b'.2.1.trans a'.2.1, fun hP => ?_⟩
  have a2 := a'.2.2 hP
  have b2 := b'.2.2 fun h => hP (hq n h hn)
  exact ⟨b2.1.trans a2.1, b2.2.trans a2.2⟩

theorem Frame.prefix {P : List Nat} {h0 h h' : Heap} {e : Heap} (f : Frame P h h')
    (he : h = h0 ++ e) (hP : ∀ n ∈ P, h0.length ≤ n) : ∃ e', h' = h0 ++ e' := by
  subst he
  refine Heap.prefix_of_obs (by have := f.1; simp at this; omega) fun n hn => ?_
  have h1 := f.2 n (by simp; omega)
  have h2 := h1.2.2 fun h => by have := hP n h; omega
  have o := Heap.obs_append_left h0 e n hn
  exact ⟨h1.1.trans o.1, h2.1.trans o.2.1, h1.2.1.trans o.2.2.1, h2.2.trans o.2.2.2⟩

/-- A tree without end nodes built on top of heap `h0`: all its nodes are newer
than `h0`, which is unchanged. -/
structure Fresh (nt : Nat) (h0 h : Heap) (t : Tree) : Prop where
  ext : ∃ e, h = h0 ++ e
  lay : t.Lay nt h
  noFin : t.noFin = true
  greedy : t.GreedyOk h
  ge : ∀ n ∈ t.pos, h0.length ≤ n

namespace Fresh
variable {nt : Nat} {h0 h h' : Heap} {t l r : Tree}

theorem lt (H : Fresh nt h0 h t) : ∀ n ∈ t.pos, n < h.length := H.lay.wf.lt

theorem frame {P : List Nat} (H : Fresh nt h0 h t) (f : Frame P h h') (hd : ∀ n ∈ t.pos, n ∉ P)
    (hP : ∀ n ∈ P, h0.length ≤ n) : Fresh nt h0 h' t := by
  obtain ⟨e, he⟩ := H.ext
  refine ⟨f.prefix he hP, H.lay.congr fun n hn => ?_, H.noFin, H.greedy.congr fun n hn => ?_, H.ge⟩
  · have := f.2 n (H.lt n hn)
    exact ⟨this.1, this.2.1, (this.2.2 (hd n hn)).2⟩
  · exact ((f.2 n (H.lt n hn)).2.2 (hd n hn)).1

theorem append (H : Fresh nt h0 h t) (e : Heap) : Fresh nt h0 (h ++ e) t :=
  H.frame (Frame.append [] h e) (by simp) (by simp)

theorem weaken {e : Heap} (H : Fresh nt h h' t) (he : h = h0 ++ e) : Fresh nt h0 h' t := by
  subst he
  obtain ⟨e', rfl⟩ := H.ext
  exact ⟨⟨e ++ e', by simp⟩, H.lay, H.noFin, H.greedy, fun n hn => by
    have := H.ge n hn; simp at this; omega⟩

end Fresh

/-- Node `n` of the heap reads symbol `s`, given which symbols each token reads. -/
def Reads (acc : Nat → Sym → Prop) (h : Heap) (n : Nat) (s : Sym) : Prop :=
  ∃ tk, h.tokOf n = some tk ∧ acc tk s

/-- Words of a tree in a heap. -/
def TL (acc : Nat → Sym → Prop) (h : Heap) (t : Tree) : List Sym → Prop := t.lang (Reads acc h)

/-- All leaf tokens of a tree satisfy `P`. -/
def TokAll (P : Nat → Prop) (h : Heap) (t : Tree) : Prop :=
  ∀ n ∈ t.pos, ∀ tk, h.tokOf n = some tk → P tk

theorem Tree.lang_congr {σ : Type} {A B : Nat → σ → Prop} (t : Tree)
    (e : ∀ n ∈ t.pos, ∀ s, A n s ↔ B n s) : ∀ w, t.lang A w ↔ t.lang B w := by
  induction t with
  | leaf n null =>
    intro w
    cases null with
    | true => simp [lang]
    | false =>
      simp only [lang, Bool.false_eq_true, if_false]
      exact exists_congr fun s => and_congr_right fun _ => e n (by simp [pos]) s
  | fin n =>
    intro w
    exact exists_congr fun s => and_congr_right fun _ => e n (by simp [pos]) s
  | seq l r ihl ihr =>
    intro w
    simp only [lang, ihl fun n hn => e n (by simp [pos, hn]), ihr fun n hn => e n (by simp [pos, hn])]
  | sel l r ihl ihr =>
    intro w
    simp only [lang, ihl fun n hn => e n (by simp [pos, hn]), ihr fun n hn => e n (by simp [pos, hn])]
  | iter t g ih =>
    intro w
    have : t.lang A = t.lang B := funext fun w => propext (ih e w)
    simp only [lang, this]

theorem TL_congr {acc : Nat → Sym → Prop} {h h' : Heap} (t : Tree)
    (e : ∀ n ∈ t.pos, h'.tokOf n = h.tokOf n) : TL acc h' t = TL acc h t :=
  funext fun w => propext (t.lang_congr (fun n hn s => by simp only [Reads, e n hn]) w)

theorem TokAll.congr {P : Nat → Prop} {h h' : Heap} {t : Tree} (H : TokAll P h t)
    (e : ∀ n ∈ t.pos, h'.tokOf n = h.tokOf n) : TokAll P h' t := by
  intro n hn tk h1
  exact H n hn tk (by rw [← e n hn]; exact h1)

theorem Tree.SameShape.lang {acc : Nat → Sym → Prop} {h h' : Heap} {t t' : Tree}
    (H : SameShape h h' t t') : TL acc h' t' = TL acc h t := by
  induction t generalizing t' with
  | leaf n a =>
    cases t' <;> try exact H.elim
    obtain ⟨rfl, h2, _⟩ := H
    funext w
    simp only [TL, Tree.lang, Reads, h2]
  | fin n => cases t' <;> exact H.elim
  | seq l r ihl ihr =>
    cases t' <;> try exact H.elim
    have h1 := ihl H.1; have h2 := ihr H.2
    unfold TL at *
    funext w
    simp only [Tree.lang, h1, h2]
  | sel l r ihl ihr =>
    cases t' <;> try exact H.elim
    have h1 := ihl H.1; have h2 := ihr H.2
    unfold TL at *
    funext w
    simp only [Tree.lang, h1, h2]
  | iter t g ih =>
    cases t' <;> try exact H.elim
    have h1 := ih H.2
    unfold TL at *
    funext w
    simp only [Tree.lang, h1]

theorem Tree.SameShape.tokAll {P : Nat → Prop} {h h' : Heap} {t t' : Tree}
    (H : SameShape h h' t t') (hp : TokAll P h t) : TokAll P h' t' := by
  unfold TokAll at *
  induction t generalizing t' with
  | leaf n a =>
    cases t' <;> try exact H.elim
    obtain ⟨rfl, h2, _⟩ := H
    intro m hm tk htk
    simp only [pos, List.mem_singleton] at hm
    subst hm
    exact hp n (by simp [pos]) tk (by rw [h2]; exact htk)
  | fin n => cases t' <;> exact H.elim
  | seq l r ihl ihr =>
    cases t' <;> try exact H.elim
    intro m hm
    simp only [pos, List.mem_append] at hm hp
    exact hm.elim (ihl H.1 (fun n hn => hp n (.inl hn)) m) (ihr H.2 (fun n hn => hp n (.inr hn)) m)
  | sel l r ihl ihr =>
    cases t' <;> try exact H.elim
    intro m hm
    simp only [pos, List.mem_append] at hm hp
    exact hm.elim (ihl H.1 (fun n hn => hp n (.inl hn)) m) (ihr H.2 (fun n hn => hp n (.inr hn)) m)
  | iter t g ih =>
    cases t' <;> try exact H.elim
    have := ih H.2 hp
    exact this

section Fresh
variable {nt : Nat} {h0 h : Heap} {t l r : Tree}

theorem fresh_leaf {e : Heap} (he : h = h0 ++ e) (token : Nat) (g : Greedy) :
    Fresh nt h0 (h.newLeaf nt token g).1 (h.newLeaf nt token g).2 := by
  subst he
  exact ⟨⟨e ++ [⟨.leaf token g, []⟩], by simp [Heap.newLeaf]⟩, Heap.newLeaf_lay nt _ token g, rfl,
    trivial, by simp [Heap.newLeaf, Tree.pos]⟩

theorem fresh_sel (hl : Fresh nt h0 h l) (hr : Fresh nt h0 h r) (hd : ∀ n ∈ l.pos, n ∉ r.pos) :
    Fresh nt h0 h (.sel l r) := by
  refine ⟨hl.ext, ⟨⟨hl.lay.wf, hr.lay.wf⟩, ?_, ?_⟩, by simp [Tree.noFin, hl.noFin, hr.noFin],
    ⟨hl.greedy, hr.greedy⟩, ?_⟩
  · simp only [Tree.pos]
    exact List.nodup_append.2 ⟨hl.lay.nodup, hr.lay.nodup, fun a ha b hb he => hd a ha (he ▸ hb)⟩
  · intro n hn
    simp only [Tree.pos, List.mem_append] at hn
    rw [Tree.follow]
    rcases hn with hn | hn
    · rw [hl.lay.fol n hn, Tree.follow_out r n (hd n hn), List.append_nil]
    · rw [hr.lay.fol n hn, Tree.follow_out l n fun h => hd n h hn, List.nil_append]
  · intro n hn
    simp only [Tree.pos, List.mem_append] at hn
    exact hn.elim (hl.ge n) (hr.ge n)

theorem fresh_seq (hl : Fresh nt h0 h l) (hr : Fresh nt h0 h r) (hd : ∀ n ∈ l.pos, n ∉ r.pos) :
    ∃ h', h.newSeq l r = .ok (h', .seq l r) ∧ Fresh nt h0 h' (.seq l r) ∧
      Frame l.pos h h' ∧ ∀ m, h'.tokOf m = h.tokOf m := by
  obtain ⟨h', a1, a2, a3, a4, a5⟩ := Heap.newSeq_lay nt h l r hl.lay hr.lay hl.noFin hd
  have f : Frame l.pos h h' := ⟨by omega, fun n hn => ⟨(a4 n).1, (a4 n).2.2,
    fun hP => ⟨(a4 n).2.1, a5 n hP⟩⟩⟩
  obtain ⟨e, he⟩ := hl.ext
  refine ⟨h', a1, ⟨f.prefix he hl.ge, a2, by simp [Tree.noFin, hl.noFin, hr.noFin],
    ⟨hl.greedy.congr fun n _ => (a4 n).2.1, hr.greedy.congr fun n _ => (a4 n).2.1⟩, ?_⟩, f,
    fun m => (a4 m).1⟩
  intro n hn
  simp only [Tree.pos, List.mem_append] at hn
  exact hn.elim (hl.ge n) (hr.ge n)

theorem fresh_iter (ht : Fresh nt h0 h t) (g : Greedy) (hg : g ≠ .yes) :
    ∃ h', h.newIter t g = .ok (h', .iter t g) ∧ Fresh nt h0 h' (.iter t g) ∧
      Frame t.pos h h' ∧ ∀ m, h'.tokOf m = h.tokOf m := by
  obtain ⟨h', a1, a2, a3, a4, a5, a6⟩ := Heap.newIter_lay nt h t g ht.lay ht.noFin
  have f : Frame t.pos h h' := ⟨by omega, fun n hn => ⟨(a4 n).1, (a4 n).2,
    fun hP => ⟨by rw [a6, if_neg fun h => hP (Tree.firstpos_sub t n h)], a5 n hP⟩⟩⟩
  obtain ⟨e, he⟩ := ht.ext
  refine ⟨h', a1, ⟨f.prefix he ht.ge, a2, ht.noFin, ⟨fun n hn => ?_, hg,
    ht.greedy.set hg a6⟩, ht.ge⟩, f, fun m => (a4 m).1⟩
  rw [a6, if_pos hn]
  obtain ⟨k, hk⟩ := ht.lay.wf.tok ht.noFin n (Tree.firstpos_sub t n hn)
  have : ∃ g0, h.greedyOf n = some g0 := by
    unfold Heap.tokOf at hk; unfold Heap.greedyOf
    split at hk
    · rename_i x y z hh; exact ⟨y, rfl⟩
    · cases hk
  obtain ⟨g0, hg0⟩ := this
  rw [hg0]
  cases g0 <;> simp [Heap.upd]

theorem fresh_copy (ht : Fresh nt h0 h t) :
    ∃ e t', h.copy nt t = .ok (h ++ e, t') ∧ Fresh nt h (h ++ e) t' ∧
      Tree.SameShape h (h ++ e) t t' := by
  obtain ⟨e, t', a1, a2, a3, a4⟩ := Heap.copy_spec nt h t ht.lay.wf ht.noFin ht.greedy
  exact ⟨e, t', a1, ⟨⟨e, rfl⟩, a3, a2.noFin, a2.greedyOk ht.greedy, a4⟩, a2⟩

theorem fresh_greedy (ht : Fresh nt h0 h t) (g : Greedy) (hg : g ≠ .yes) :
    ∃ h', h.setGreedyAll t.firstpos g = .ok h' ∧ Fresh nt h0 h' t ∧
      Frame t.pos h h' ∧ ∀ m, h'.tokOf m = h.tokOf m := by
  obtain ⟨h', a1, a2, a3, a4⟩ := Heap.setGreedyAll_spec t.firstpos g h
    (fun n hn => ht.lay.wf.tok ht.noFin n (Tree.firstpos_sub t n hn))
  have f : Frame t.pos h h' := ⟨by omega, fun n hn => ⟨(a3 n).1, (a3 n).2.1,
    fun hP => ⟨by rw [a4, if_neg fun h => hP (Tree.firstpos_sub t n h)], (a3 n).2.2⟩⟩⟩
  obtain ⟨e, he⟩ := ht.ext
  exact ⟨h', a1, ⟨f.prefix he ht.ge, ht.lay.congr fun n _ => a3 n, ht.noFin,
    ht.greedy.set hg a4, ht.ge⟩, f, fun m => (a3 m).1⟩

end Fresh

/-- Concatenation of languages. -/
def Cat {σ : Type} (L K : List σ → Prop) (w : List σ) : Prop := ∃ u v, w = u ++ v ∧ L u ∧ K v

theorem cat_assoc {σ : Type} (L K J : List σ → Prop) : Cat (Cat L K) J = Cat L (Cat K J) := by
  funext w
  apply propext
  constructor
  · rintro ⟨_, j, rfl, ⟨l, k, rfl, h1, h2⟩, h3⟩
    exact ⟨l, k ++ j, by simp, h1, k, j, rfl, h2, h3⟩
  · rintro ⟨l, _, rfl, h1, k, j, rfl, h2, h3⟩
    exact ⟨l ++ k, j, by simp, ⟨l, k, rfl, h1, h2⟩, h3⟩

theorem pow_zero_cat {σ : Type} (L K : List σ → Prop) : Cat L (Pow K 0) = L := by
  funext w
  apply propext
  constructor
  · rintro ⟨u, v, rfl, h, rfl⟩; simpa using h
  · intro h; exact ⟨w, [], by simp, h, rfl⟩

theorem zero_pow_cat {σ : Type} (L K : List σ → Prop) : Cat (Pow K 0) L = L := by
  funext w
  apply propext
  constructor
  · rintro ⟨u, v, rfl, rfl, h⟩; simpa using h
  · intro h; exact ⟨[], w, by simp, rfl, h⟩

theorem pow_succ {σ : Type} (L : List σ → Prop) (k : Nat) : Pow L (k + 1) = Cat L (Pow L k) := rfl

theorem pow_one {σ : Type} (L : List σ → Prop) : Pow L 1 = L := by
  rw [pow_succ, pow_zero_cat]

theorem pow_add {σ : Type} (L : List σ → Prop) (j k : Nat) : Cat (Pow L j) (Pow L k) = Pow L (j + k) := by
  induction j with
  | zero => rw [zero_pow_cat, Nat.zero_add]
  | succ j ih => rw [pow_succ, cat_assoc, ih, Nat.succ_add, pow_succ]

theorem cat_pow_comm {σ : Type} (L : List σ → Prop) (k : Nat) : Cat (Pow L k) L = Pow L (k + 1) := by
  have := pow_add L k 1
  rwa [pow_one] at this

theorem star_pow {σ : Type} (L : List σ → Prop) (w : List σ) : Star L w ↔ ∃ k, Pow L k w := by
  constructor
  · intro h
    induction h with
    | nil => exact ⟨0, rfl⟩
    | app u v hu _ ih => obtain ⟨k, hk⟩ := ih; exact ⟨k + 1, u, v, rfl, hu, hk⟩
  · rintro ⟨k, hk⟩
    induction k generalizing w with
    | zero => cases hk; exact .nil
    | succ k ih => obtain ⟨u, v, rfl, h1, h2⟩ := hk; exact .app u v h1 (ih v h2)

/-- `L` or the empty word. -/
def Opt {σ : Type} (L : List σ → Prop) (w : List σ) : Prop := w = [] ∨ L w

theorem pow_opt {σ : Type} (L : List σ → Prop) (n : Nat) (w : List σ) :
    Pow (Opt L) n w ↔ ∃ k, k ≤ n ∧ Pow L k w := by
  induction n generalizing w with
  | zero =>
    constructor
    · intro h; exact ⟨0, Nat.le_refl _, h⟩
    · rintro ⟨k, hk, h⟩; obtain rfl : k = 0 := by omega
      exact h
  | succ n ih =>
    constructor
    · rintro ⟨u, v, rfl, rfl | h1, h2⟩
      · obtain ⟨k, hk, h⟩ := (ih v).1 h2
        exact ⟨k, by omega, h⟩
      · obtain ⟨k, hk, h⟩ := (ih v).1 h2
        exact ⟨k + 1, by omega, u, v, rfl, h1, h⟩
    · rintro ⟨k, hk, h⟩
      cases k with
      | zero => cases h; exact ⟨[], [], rfl, .inl rfl, (ih []).2 ⟨0, by omega, rfl⟩⟩
      | succ k =>
        obtain ⟨u, v, rfl, h1, h2⟩ := h
        exact ⟨u, v, rfl, .inr h1, (ih v).2 ⟨k, by omega, h2⟩⟩

/-- Outcome of an operation on the top tree `t` of the stack: it is replaced by a
fresh tree whose words are `F` of those of `t`. -/
def OpDone (nt : Nat) (h0 : Heap) (p : PState) (t : Tree) (ts : List Tree)
    (F : (List Sym → Prop) → List Sym → Prop) (res : M PState) : Prop :=
  ∃ h' t', res = .ok { p with heap := h', trees := t' :: ts } ∧ Fresh nt h0 h' t' ∧
    Frame t.pos p.heap h' ∧ (∀ n ∈ t'.pos, n ∈ t.pos ∨ p.heap.length ≤ n) ∧
    (∀ acc, TL acc h' t' = F (TL acc p.heap t)) ∧
    ∀ P : Nat → Prop, P nt → TokAll P p.heap t → TokAll P h' t'

theorem TokAll.node {P : Nat → Prop} {h : Heap} {l r : Tree} (hl : TokAll P h l) (hr : TokAll P h r) :
    TokAll P h (.seq l r) ∧ TokAll P h (.sel l r) := by
  constructor <;>
  · intro n hn
    simp only [Tree.pos, List.mem_append] at hn
    exact hn.elim (hl n) (hr n)

namespace PState

theorem optional_spec (tr : Traits) (h0 : Heap) (p : PState) (t : Tree) (ts : List Tree)
    (hp : p.trees = t :: ts) (ht : Fresh tr.nullToken h0 p.heap t) (g : Greedy) (hg : g ≠ .yes) :
    OpDone tr.nullToken h0 p t ts Opt (p.optional tr g) := by
  obtain ⟨h1, a1, a2, a3, a4⟩ := fresh_greedy ht g hg
  obtain ⟨e, he⟩ := a2.ext
  have hl := fresh_leaf (nt := tr.nullToken) he tr.nullToken g
  have hlen : h1.length = p.heap.length ∨ p.heap.length ≤ h1.length := .inr a3.1
  refine ⟨(h1.newLeaf tr.nullToken tr.nullToken g).1,
    .sel t (h1.newLeaf tr.nullToken tr.nullToken g).2, ?_, ?_, ?_, ?_, ?_, ?_⟩
  · unfold optional; rw [hp]; simp only [a1, bind, Except.bind]
  · refine fresh_sel (a2.append _) hl fun n hn hm => ?_
    simp [Heap.newLeaf, Tree.pos] at hm
    have := a2.lt n hn
    omega
  · exact a3.trans (Frame.append [] h1 _) (by simp)
  · intro n hn
    simp [Heap.newLeaf, Tree.pos] at hn
    rcases hn with hn | rfl
    · exact .inl hn
    · exact .inr a3.1
  · intro acc
    have h1' : TL acc (h1.newLeaf tr.nullToken tr.nullToken g).1 t = TL acc p.heap t :=
      TL_congr t fun n hn => by
        rw [show (h1.newLeaf tr.nullToken tr.nullToken g).1 = h1 ++ _ from rfl,
          (Heap.obs_append_left h1 _ n (a2.lt n hn)).1, a4]
    funext w
    show (TL acc (h1.newLeaf tr.nullToken tr.nullToken g).1 t w ∨ _) = _
    rw [h1']
    simp only [Heap.newLeaf, Tree.lang, beq_self_eq_true, if_true, Opt, or_comm]
  · intro P hn hP
    refine (TokAll.node (TokAll.congr hP fun n hn => ?_) ?_).2
    · rw [show (h1.newLeaf tr.nullToken tr.nullToken g).1 = h1 ++ _ from rfl,
          (Heap.obs_append_left h1 _ n (a2.lt n hn)).1, a4]
    · intro n hm tk htk
      simp [Heap.newLeaf, Tree.pos] at hm
      subst hm
      simp [Heap.newLeaf, Heap.tokOf] at htk
      exact htk ▸ hn

theorem zeroOrMore_spec (tr : Traits) (h0 : Heap) (p : PState) (t : Tree) (ts : List Tree)
    (hp : p.trees = t :: ts) (ht : Fresh tr.nullToken h0 p.heap t) (g : Greedy) (hg : g ≠ .yes) :
    OpDone tr.nullToken h0 p t ts Star (p.zeroOrMore g) := by
  obtain ⟨h1, a1, a2, a3, a4⟩ := fresh_iter ht g hg
  refine ⟨h1, .iter t g, ?_, a2, a3, fun n hn => .inl hn, fun acc => ?_, fun P hn hP => ?_⟩
  · unfold zeroOrMore; rw [hp]; simp only [a1, bind, Except.bind]
  · have := TL_congr (acc := acc) (h := p.heap) (h' := h1) t fun n _ => a4 n
    funext w
    show Star (TL acc h1 t) w = _
    rw [this]
  · exact TokAll.congr (t := t) hP fun n _ => a4 n

theorem oneOrMore_spec (tr : Traits) (h0 : Heap) (p : PState) (t : Tree) (ts : List Tree)
    (hp : p.trees = t :: ts) (ht : Fresh tr.nullToken h0 p.heap t) (g : Greedy) (hg : g ≠ .yes) :
    OpDone tr.nullToken h0 p t ts (fun L => Cat L (Star L)) (p.oneOrMore tr g) := by
  obtain ⟨e1, t1, a1, a2, a3⟩ := fresh_copy ht
  obtain ⟨h2, b1, b2, b3, b4⟩ := fresh_iter a2 g hg
  obtain ⟨e0, he0⟩ := ht.ext
  have hge : ∀ n ∈ t1.pos, n ∉ t.pos := fun n hn hm => by
    have := a2.ge n hn; have := ht.lt n hm; omega
  have ht2 : Fresh tr.nullToken h0 h2 t := (ht.append e1).frame b3 (fun n hn hm => hge n hm hn)
    (fun n hn => by have := a2.ge n hn; rw [he0] at this; simp at this; omega)
  have hi2 : Fresh tr.nullToken h0 h2 (.iter t1 g) := b2.weaken he0
  obtain ⟨h3, c1, c2, c3, c4⟩ := fresh_seq ht2 hi2 (fun n hn hm => hge n hm hn)
  have htok : ∀ n ∈ t.pos, h3.tokOf n = p.heap.tokOf n := fun n hn => by
    rw [c4, b4, (Heap.obs_append_left p.heap e1 n (ht.lt n hn)).1]
  have htok1 : ∀ n ∈ t1.pos, h3.tokOf n = Heap.tokOf (p.heap ++ e1) n := fun n hn => by
    rw [c4, b4]
  refine ⟨h3, .seq t (.iter t1 g), ?_, c2, ?_, ?_, ?_, ?_⟩
  · unfold oneOrMore; rw [hp]; simp only [a1, b1, c1, bind, Except.bind]
  · refine ((Frame.append t.pos p.heap e1).trans b3 ?_).trans c3 ?_
    · intro n hn hlt; have := a2.ge n hn; omega
    · intro n hn _; exact hn
  · intro n hn
    simp only [Tree.pos, List.mem_append] at hn
    exact hn.imp id (a2.ge n)
  · intro acc
    have e1 : TL acc h3 t = TL acc p.heap t := TL_congr t htok
    have e2 : TL acc h3 t1 = TL acc p.heap t := (TL_congr t1 htok1).trans a3.lang
    show Cat (TL acc h3 t) (Star (TL acc h3 t1)) = _
    rw [e1, e2]
  · intro P hn hP
    exact (TokAll.node (TokAll.congr hP htok)
      (TokAll.congr (t := .iter t1 g) (a3.tokAll hP) htok1)).1

/-- State of the `repeatn` loops: a tree `t` on the stack and a spare `prev`. -/
structure Pair (nt : Nat) (h0 h : Heap) (a b : Tree) : Prop where
  t : Fresh nt h0 h a
  prev : Fresh nt h0 h b
  disj : ∀ n ∈ a.pos, n ∉ b.pos

theorem appendCopy_spec (tr : Traits) (h0 : Heap) (p : PState) (t prev : Tree) (ts : List Tree)
    (hp : p.trees = t :: ts) (H : Pair tr.nullToken h0 p.heap t prev) :
    ∃ h' prev', p.appendCopy tr prev =
        .ok ({ p with heap := h', trees := .seq t prev :: ts }, prev') ∧
      Pair tr.nullToken h0 h' (.seq t prev) prev' ∧ Frame t.pos p.heap h' ∧
      (∀ n ∈ prev'.pos, p.heap.length ≤ n) ∧
      (∀ acc, TL acc h' (.seq t prev) = Cat (TL acc p.heap t) (TL acc p.heap prev) ∧
        TL acc h' prev' = TL acc p.heap prev) ∧
      ∀ P : Nat → Prop, TokAll P p.heap t → TokAll P p.heap prev →
        TokAll P h' (.seq t prev) ∧ TokAll P h' prev' := by
  obtain ⟨e1, t1, a1, a2, a3⟩ := fresh_copy H.prev
  obtain ⟨e0, he0⟩ := H.t.ext
  obtain ⟨h3, c1, c2, c3, c4⟩ := fresh_seq (H.t.append e1) (H.prev.append e1) H.disj
  have hd : ∀ n ∈ t1.pos, n ∉ t.pos := fun n hn hm => by
    have := a2.ge n hn; have := H.t.lt n hm; omega
  have htok : ∀ n, n < p.heap.length → h3.tokOf n = p.heap.tokOf n := fun n hn => by
    rw [c4, (Heap.obs_append_left p.heap e1 n hn).1]
  have htok1 : ∀ n ∈ t1.pos, h3.tokOf n = Heap.tokOf (p.heap ++ e1) n := fun n hn => by rw [c4]
  have f : Frame t.pos p.heap h3 := (Frame.append t.pos p.heap e1).trans c3 fun n hn _ => hn
  refine ⟨h3, t1, ?_, ⟨c2, (a2.weaken he0).frame c3 hd H.t.ge, ?_⟩, f, a2.ge, ?_, ?_⟩
  · unfold appendCopy sequence
    simp only [a1, hp, bind, Except.bind, c1]
  · intro n hn hm
    simp only [Tree.pos, List.mem_append] at hn
    have := a2.ge n hm
    rcases hn with hn | hn
    · have := H.t.lt n hn; omega
    · have := H.prev.lt n hn; omega
  · intro acc
    have e1 : TL acc h3 t = TL acc p.heap t := TL_congr t fun n hn => htok n (H.t.lt n hn)
    have e2 : TL acc h3 prev = TL acc p.heap prev := TL_congr prev fun n hn => htok n (H.prev.lt n hn)
    refine ⟨?_, (TL_congr t1 htok1).trans a3.lang⟩
    show Cat (TL acc h3 t) (TL acc h3 prev) = _
    rw [e1, e2]
  · intro P hP hQ
    exact ⟨(TokAll.node (TokAll.congr hP fun n hn => htok n (H.t.lt n hn))
      (TokAll.congr hQ fun n hn => htok n (H.prev.lt n hn))).1, TokAll.congr (a3.tokAll hQ) htok1⟩

/-- Outcome of the loops of `repeatn`. -/
def LoopDone (nt : Nat) (h0 : Heap) (p : PState) (t prev : Tree) (ts : List Tree)
    (F : (List Sym → Prop) → (List Sym → Prop) → List Sym → Prop)
    (G : (List Sym → Prop) → List Sym → Prop) (res : M (PState × Tree)) : Prop :=
  ∃ h' t' prev', res = .ok ({ p with heap := h', trees := t' :: ts }, prev') ∧
    Pair nt h0 h' t' prev' ∧ Frame (t.pos ++ prev.pos) p.heap h' ∧
    (∀ n, n ∈ t'.pos ∨ n ∈ prev'.pos → n ∈ t.pos ∨ n ∈ prev.pos ∨ p.heap.length ≤ n) ∧
    (∀ acc, TL acc h' t' = F (TL acc p.heap t) (TL acc p.heap prev) ∧
      TL acc h' prev' = G (TL acc p.heap prev)) ∧
    ∀ P : Nat → Prop, P nt → TokAll P p.heap t → TokAll P p.heap prev →
      TokAll P h' t' ∧ TokAll P h' prev'

theorem LoopDone.refl {nt : Nat} {h0 : Heap} {p : PState} {t prev : Tree} {ts : List Tree}
    (hp : p.trees = t :: ts) (H : Pair nt h0 p.heap t prev) :
    LoopDone nt h0 p t prev ts (fun L _ => L) id (.ok (p, prev)) :=
  ⟨p.heap, t, prev, by rw [← hp], H, Frame.refl _ _, fun n hn => hn.elim .inl fun h => .inr (.inl h),
    fun _ => ⟨rfl, rfl⟩, fun _ _ a b => ⟨a, b⟩⟩

theorem LoopDone.trans {nt : Nat} {h0 : Heap} {p : PState} {t prev : Tree} {ts : List Tree}
    {F F' : (List Sym → Prop) → (List Sym → Prop) → List Sym → Prop}
    {G G' : (List Sym → Prop) → List Sym → Prop} {res : M (PState × Tree)}
    {k : PState × Tree → M (PState × Tree)} (H : LoopDone nt h0 p t prev ts F G res)
    (K : ∀ p' t' prev', p'.trees = t' :: ts → Pair nt h0 p'.heap t' prev' →
      LoopDone nt h0 p' t' prev' ts F' G' (k (p', prev'))) :
    LoopDone nt h0 p t prev ts (fun L M => F' (F L M) (G M)) (fun M => G' (G M)) (res >>= k) := by
  obtain ⟨h1, t1, prev1, rfl, a2, a3, a4, a5, a6⟩ := H
  obtain ⟨h2, t2, prev2, b1, b2, b3, b4, b5, b6⟩ := K { p with heap := h1, trees := t1 :: ts } t1 prev1
    rfl a2
  refine ⟨h2, t2, prev2, b1, b2, a3.trans b3 ?_, ?_, ?_, ?_⟩
  · intro n hn hlt
    rcases a4 n (List.mem_append.1 hn) with h | h | h
    · simp [h]
    · simp [h]
    · omega
  · intro n hn
    rcases b4 n hn with h | h | h
    · exact a4 n (.inl h)
    · exact a4 n (.inr h)
    · exact .inr (.inr (Nat.le_trans a3.1 h))
  · intro acc
    rw [(b5 acc).1, (b5 acc).2]
    simp only [(a5 acc).1, (a5 acc).2, and_self]
  · intro P hn h1 h2
    obtain ⟨h3, h4⟩ := a6 P hn h1 h2
    exact b6 P hn h3 h4

theorem LoopDone.congr {nt : Nat} {h0 : Heap} {p : PState} {t prev : Tree} {ts : List Tree}
    {F F' : (List Sym → Prop) → (List Sym → Prop) → List Sym → Prop}
    {G G' : (List Sym → Prop) → List Sym → Prop} {res : M (PState × Tree)}
    (H : LoopDone nt h0 p t prev ts F G res) (hF : ∀ L M, F L M = F' L M) (hG : ∀ M, G M = G' M) :
    LoopDone nt h0 p t prev ts F' G' res := by
  obtain ⟨h1, t1, prev1, a1, a2, a3, a4, a5, a6⟩ := H
  exact ⟨h1, t1, prev1, a1, a2, a3, a4, fun acc => ⟨by rw [(a5 acc).1, hF], by rw [(a5 acc).2, hG]⟩, a6⟩

theorem appendCopy_done (tr : Traits) (h0 : Heap) (p : PState) (t prev : Tree) (ts : List Tree)
    (hp : p.trees = t :: ts) (H : Pair tr.nullToken h0 p.heap t prev) :
    LoopDone tr.nullToken h0 p t prev ts Cat id (p.appendCopy tr prev) := by
  obtain ⟨h', prev', a1, a2, a3, a4, a5, a6⟩ := appendCopy_spec tr h0 p t prev ts hp H
  refine ⟨h', _, prev', a1, a2, ⟨a3.1, fun n hn => ⟨(a3.2 n hn).1, (a3.2 n hn).2.1, fun h =>
    (a3.2 n hn).2.2 fun h' => h (by simp [h'])⟩⟩, ?_, a5, fun P _ => a6 P⟩
  intro n hn
  rcases hn with hn | hn
  · simp only [Tree.pos, List.mem_append] at hn
    exact hn.elim .inl fun h => .inr (.inl h)
  · exact .inr (.inr (a4 n hn))

theorem appendCopies_done (tr : Traits) (h0 : Heap) (ts : List Tree) (k : Nat) :
    ∀ (p : PState) (t prev : Tree), p.trees = t :: ts → Pair tr.nullToken h0 p.heap t prev →
    LoopDone tr.nullToken h0 p t prev ts (fun L M => Cat L (Pow M k)) id (p.appendCopies tr k prev) := by
  induction k with
  | zero =>
    intro p t prev hp H
    exact (LoopDone.refl hp H).congr (fun L M => (pow_zero_cat L M).symm) fun _ => rfl
  | succ k ih =>
    intro p t prev hp H
    have := (appendCopy_done tr h0 p t prev ts hp H).trans
      (k := fun q => q.1.appendCopies tr k q.2) fun p' t' prev' h1 h2 => ih p' t' prev' h1 h2
    exact this.congr (fun L M => by rw [cat_assoc]; rfl) fun _ => rfl

theorem onTop_done (tr : Traits) (h0 : Heap) (p : PState) (t prev : Tree) (ts : List Tree)
    (hp : p.trees = t :: ts) (H : Pair tr.nullToken h0 p.heap t prev) (op : PState → M PState)
    (G : (List Sym → Prop) → List Sym → Prop)
    (hop : ∀ q : PState, q.trees = prev :: t :: ts → Fresh tr.nullToken h0 q.heap prev →
      OpDone tr.nullToken h0 q prev (t :: ts) G (op q)) :
    LoopDone tr.nullToken h0 p t prev ts (fun L _ => L) G (p.onTop prev op) := by
  obtain ⟨h', t', a1, a2, a3, a4, a5, a6⟩ := hop { p with trees := prev :: t :: ts } rfl H.prev
  have htok : ∀ n ∈ t.pos, h'.tokOf n = p.heap.tokOf n := fun n hn => (a3.2 n (H.t.lt n hn)).1
  refine ⟨h', t, t', ?_, ⟨H.t.frame a3 H.disj H.prev.ge, a2, ?_⟩, ?_, ?_, ?_, ?_⟩
  · unfold onTop; rw [hp, a1]; rfl
  · intro n hn hm
    rcases a4 n hm with h | h
    · exact H.disj n hn h
    · have := H.t.lt n hn; simp at h; omega
  · exact ⟨a3.1, fun n hn => ⟨(a3.2 n hn).1, (a3.2 n hn).2.1, fun h =>
      (a3.2 n hn).2.2 fun h' => h (by simp [h'])⟩⟩
  · intro n hn
    rcases hn with hn | hn
    · exact .inl hn
    · exact .inr (a4 n hn)
  · intro acc
    exact ⟨TL_congr t htok, a5 acc⟩
  · intro P h1 h2 h3
    exact ⟨TokAll.congr h2 htok, a6 P h1 h3⟩

/-- The words of `r{min,max}`. -/
def RepLang (lo : Nat) (hi : Option Nat) (L : List Sym → Prop) (w : List Sym) : Prop :=
  ∃ k, lo ≤ k ∧ (∀ h, hi = some h → k ≤ h) ∧ Pow L k w

theorem cat_opt {L : List Sym → Prop} (lo j : Nat) :
    Cat (Pow L lo) (Pow (Opt L) j) = RepLang lo (some (lo + j)) L := by
  funext w
  apply propext
  constructor
  · rintro ⟨u, v, rfl, h1, h2⟩
    obtain ⟨k, hk, h3⟩ := (pow_opt L j v).1 h2
    refine ⟨lo + k, by omega, fun h hh => by cases hh; omega, ?_⟩
    rw [← pow_add]; exact ⟨u, v, rfl, h1, h3⟩
  · rintro ⟨k, h1, h2, h3⟩
    have := h2 _ rfl
    obtain ⟨i, rfl⟩ : ∃ i, k = lo + i := ⟨k - lo, by omega⟩
    rw [← pow_add] at h3
    obtain ⟨u, v, rfl, h4, h5⟩ := h3
    exact ⟨u, v, rfl, h4, (pow_opt L j v).2 ⟨i, by omega, h5⟩⟩

theorem cat_star {L : List Sym → Prop} (lo : Nat) :
    Cat (Pow L lo) (Star L) = RepLang lo none L := by
  funext w
  apply propext
  constructor
  · rintro ⟨u, v, rfl, h1, h2⟩
    obtain ⟨k, h3⟩ := (star_pow L v).1 h2
    refine ⟨lo + k, by omega, fun h hh => (by cases hh), ?_⟩
    rw [← pow_add]; exact ⟨u, v, rfl, h1, h3⟩
  · rintro ⟨k, h1, _, h3⟩
    obtain ⟨i, rfl⟩ : ∃ i, k = lo + i := ⟨k - lo, by omega⟩
    rw [← pow_add] at h3
    obtain ⟨u, v, rfl, h4, h5⟩ := h3
    exact ⟨u, v, rfl, h4, (star_pow L v).2 ⟨i, h5⟩⟩

theorem pow_eq_rep {L : List Sym → Prop} (n : Nat) : Pow L n = RepLang n (some n) L := by
  funext w
  apply propext
  constructor
  · intro h; exact ⟨n, Nat.le_refl _, fun h hh => by cases hh; exact Nat.le_refl _, h⟩
  · rintro ⟨k, h1, h2, h3⟩
    have := h2 _ rfl
    obtain rfl : k = n := by omega
    exact h3

/-- Accepted bounds of a counted repetition. -/
def BoundsOk (lo : Nat) (hi : Option Nat) : Prop :=
  (1 ≤ lo ∧ (hi = some lo ∨ hi = none)) ∨ ∃ h, hi = some h ∧ lo < h ∧ 2 ≤ h

theorem count_bounds {e : List Nat} {lo : Nat} {hi : Option Nat} (h : Count e lo hi) :
    BoundsOk lo hi := by
  cases h with
  | exact _ _ h1 => exact .inl ⟨h1, .inl rfl⟩
  | atLeast _ _ h1 => exact .inl ⟨h1, .inr rfl⟩
  | between _ _ _ _ h1 h2 => exact .inr ⟨_, rfl, h1, h2⟩

/-- Number of `appendCopy` steps at parser.hpp:911-917. -/
def tailCnt (lo : Nat) : Option Nat → Nat
  | none => 0
  | some h => h - lo - 1

/-- Operator applied to the spare tree. -/
def tailOp (hi : Option Nat) (M : List Sym → Prop) : List Sym → Prop :=
  match hi with
  | none => Star M
  | some _ => Opt M

/-- Upper bound as the code reads it. -/
def hiMax : Option Nat → Nat
  | none => 0
  | some h => h

theorem repeatTail_done (tr : Traits) (h0 : Heap) (p : PState) (t prev : Tree) (ts : List Tree)
    (hp : p.trees = t :: ts) (H : Pair tr.nullToken h0 p.heap t prev) (g : Greedy) (hg : g ≠ .yes)
    (lo : Nat) (hi : Option Nat) (hb : BoundsOk lo hi) (hn : lo ≠ 0 → hi ≠ some lo) :
    LoopDone tr.nullToken h0 p t prev ts
      (fun L M => if lo = 0 then L else
        Cat (if 1 < lo then Cat L M else L) (Pow (Opt M) (tailCnt lo hi)))
      (fun M => if lo = 0 then M else tailOp hi M)
      (p.repeatTail tr prev g lo (hiParts lo hi).1 (hiParts lo hi).2) := by
  unfold repeatTail
  by_cases h0' : lo = 0
  · subst h0'
    rw [if_neg (by simp)]
    exact (LoopDone.refl hp H).congr (fun _ _ => by rw [if_pos rfl]) (fun _ => by rw [if_pos rfl]; rfl)
  · have hc : (hiParts lo hi).1 = true := by
      cases hi with
      | none => rfl
      | some h => simp only [hiParts]; rw [if_neg fun h' => hn h0' (by rw [h'])]
    rw [if_pos ⟨hc, by omega⟩]
    have first : LoopDone tr.nullToken h0 p t prev ts (fun L M => if 1 < lo then Cat L M else L) id
        (if lo > 1 then p.appendCopy tr prev else .ok (p, prev)) := by
      by_cases h1 : 1 < lo
      · rw [if_pos h1]
        exact (appendCopy_done tr h0 p t prev ts hp H).congr (fun _ _ => by rw [if_pos h1])
          (fun _ => rfl)
      · rw [if_neg h1]
        exact (LoopDone.refl hp H).congr (fun _ _ => by rw [if_neg h1]) (fun _ => rfl)
    cases hi with
    | none =>
      refine (first.trans (F' := fun L _ => L) (G' := Star) (fun p' t' prev' h1 h2 => ?_)).congr
        (fun L M => ?_) (fun M => ?_)
      · simp only [hiParts, ne_eq, not_true, if_false]
        exact onTop_done tr h0 p' t' prev' ts h1 h2 _ Star fun q hq hf =>
          zeroOrMore_spec tr h0 q prev' _ hq hf g hg
      · simp only [if_neg h0', tailCnt, pow_zero_cat]
      · simp only [if_neg h0']; rfl
    | some h =>
      have hne : ¬ h = lo := fun h' => hn h0' (by rw [h'])
      have hh : lo < h := by
        rcases hb with ⟨_, h1 | h1⟩ | ⟨h', h1, h2, _⟩
        · exact absurd h1 (hn h0')
        · cases h1
        · cases h1; exact h2
      have hne0 : h ≠ 0 := by omega
      refine (first.trans (F' := fun L M => Cat L (Pow (Opt M) (h - lo - 1))) (G' := Opt)
        (fun p' t' prev' h1 h2 => ?_)).congr (fun L M => ?_) (fun M => ?_)
      · simp only [hiParts, if_neg hne, if_pos hne0]
        exact ((onTop_done tr h0 p' t' prev' ts h1 h2 _ Opt fun q hq hf =>
          optional_spec tr h0 q prev' _ hq hf g hg).trans
            (k := fun q => q.1.appendCopies tr (h - lo - 1) q.2)
            fun p2 t2 prev2 => appendCopies_done tr h0 ts _ p2 t2 prev2)
      · simp only [if_neg h0']; rfl
      · simp only [if_neg h0']; rfl

theorem repLang_zero {L : List Sym → Prop} (h : Nat) : Pow (Opt L) h = RepLang 0 (some h) L := by
  have := cat_opt (L := L) 0 h
  rw [zero_pow_cat, Nat.zero_add] at this
  exact this

/-- The loops of `repeatn`, from the first copy to the last `sequence`. -/
theorem repeatLoops_spec (tr : Traits) (h0 : Heap) (p : PState) (t : Tree) (ts : List Tree)
    (hp : p.trees = t :: ts) (ht : Fresh tr.nullToken h0 p.heap t) (g : Greedy) (hg : g ≠ .yes)
    (lo : Nat) (hi : Option Nat) (hb : BoundsOk lo hi) (n1 : ¬ (lo = 1 ∧ hi = some 1)) (top : Nat)
    (htop : top = if lo > 0 then lo else hiMax hi) :
    OpDone tr.nullToken h0 p t ts
      (fun L => if lo = 0 then Pow L top else RepLang lo hi L)
      (do
        let q ← p.heap.copy tr.nullToken t
        let q ← appendCopies tr (top - 2) { p with heap := q.1 } q.2
        let q ← q.1.repeatTail tr q.2 g lo (hiParts lo hi).1 (hiParts lo hi).2
        { q.1 with trees := q.2 :: q.1.trees }.sequence) := by
  obtain ⟨e1, prev, a1, a2, a3⟩ := fresh_copy ht
  obtain ⟨e0, he0⟩ := ht.ext
  have H : Pair tr.nullToken h0 (p.heap ++ e1) t prev := ⟨ht.append e1, a2.weaken he0, fun n hn hm => by
    have := a2.ge n hm; have := ht.lt n hn; omega⟩
  have L1 := (appendCopies_done tr h0 ts (top - 2) { p with heap := p.heap ++ e1 } t prev hp H)
  have L2 := L1.trans (k := fun q =>
      q.1.repeatTail tr q.2 g lo (hiParts lo hi).1 (hiParts lo hi).2)
    (F' := fun L M => if lo > 0 ∧ hi = some lo then L else if lo = 0 then L else
        Cat (if 1 < lo then Cat L M else L) (Pow (Opt M) (tailCnt lo hi)))
    (G' := fun M => if lo > 0 ∧ hi = some lo then M else if lo = 0 then M else tailOp hi M)
    (fun p' t' prev' h1 h2 => by
      by_cases hc : lo > 0 ∧ hi = some lo
      · have : p'.repeatTail tr prev' g lo (hiParts lo hi).1 (hiParts lo hi).2 = .ok (p', prev') := by
          rw [hc.2]; simp [repeatTail, hiParts]
        simp only [if_pos hc, this]
        exact LoopDone.refl h1 h2
      · simp only [if_neg hc]
        exact repeatTail_done tr h0 p' t' prev' ts h1 h2 g hg lo hi hb fun h0' h => hc ⟨by omega, h⟩)
  obtain ⟨h2, t2, prev2, b1, b2, b3, b4, b5, b6⟩ := L2
  obtain ⟨h3, c1, c2, c3, c4⟩ := fresh_seq b2.t b2.prev b2.disj
  have hpos : ∀ n ∈ (Tree.seq t2 prev2).pos, n ∈ t.pos ∨ p.heap.length ≤ n := by
    intro n hn
    simp only [Tree.pos, List.mem_append] at hn
    rcases b4 n hn with h | h | h
    · exact .inl h
    · exact .inr (a2.ge n h)
    · simp at h; exact .inr (by omega)
  refine ⟨h3, .seq t2 prev2, ?_, c2, ?_, hpos, ?_, ?_⟩
  · simp only [a1, bind, Except.bind] at b1 ⊢
    cases hA : appendCopies tr (top - 2) { p with heap := p.heap ++ e1 } prev with
    | error e => rw [hA] at b1; cases b1
    | ok q =>
      rw [hA] at b1
      simp only at b1 ⊢
      rw [b1]
      simp only [sequence, c1, bind, Except.bind]
  · refine ((Frame.append t.pos p.heap e1).trans b3 ?_).trans c3 ?_
    · intro n hn hlt
      rcases List.mem_append.1 hn with h | h
      · exact h
      · have := a2.ge n h; omega
    · intro n hn hlt
      rcases hpos n (by simp [Tree.pos, hn]) with h | h
      · exact h
      · omega
  · intro acc
    have e1' : TL acc (p.heap ++ e1) t = TL acc p.heap t :=
      TL_congr t fun n hn => (Heap.obs_append_left p.heap e1 n (ht.lt n hn)).1
    have e2' : TL acc (p.heap ++ e1) prev = TL acc p.heap t := a3.lang
    have e3 : TL acc h3 t2 = TL acc h2 t2 := TL_congr t2 fun n _ => c4 n
    have e4 : TL acc h3 prev2 = TL acc h2 prev2 := TL_congr prev2 fun n _ => c4 n
    show Cat (TL acc h3 t2) (TL acc h3 prev2) = _
    rw [e3, e4, (b5 acc).1, (b5 acc).2]
    simp only [e1', e2', id]
    generalize TL acc p.heap t = L
    have hpl : ∀ k, Cat L (Pow L k) = Pow L (k + 1) := fun k => rfl
    by_cases h0' : lo = 0
    · subst h0'
      rcases hb with ⟨h1, _⟩ | ⟨h, rfl, h1, h2⟩
      · omega
      · simp only [Nat.lt_irrefl, false_and, if_false, if_true, gt_iff_lt] at htop ⊢
        subst htop
        rw [hpl, cat_pow_comm]
        congr 1; omega
    · simp only [if_neg h0'] at htop ⊢
      rw [if_pos (by omega)] at htop
      rw [htop]
      by_cases hc : lo > 0 ∧ hi = some lo
      · simp only [if_pos hc]
        rw [hc.2]
        have : 2 ≤ lo := by
          apply Classical.byContradiction
          intro h
          exact n1 ⟨by omega, by rw [hc.2]; congr 1; omega⟩
        rw [hpl, cat_pow_comm, ← pow_eq_rep]
        congr 1; omega
      · simp only [if_neg hc]
        have h1 : (if 1 < lo then Cat (Cat L (Pow L (lo - 2))) L else Cat L (Pow L (lo - 2))) =
            Pow L lo := by
          split
          · rw [hpl, cat_pow_comm]; congr 1; omega
          · rw [hpl]; congr 1; omega
        rw [h1]
        cases hi with
        | none => simp only [tailCnt, tailOp, pow_zero_cat, cat_star]
        | some h =>
          have hh : lo < h := by
            rcases hb with ⟨_, h1 | h1⟩ | ⟨h', h1, h2, _⟩
            · exact absurd ⟨by omega, h1⟩ hc
            · cases h1
            · cases h1; exact h2
          simp only [tailCnt, tailOp]
          rw [cat_assoc, cat_pow_comm, cat_opt]
          congr 2; omega
  · intro P hn hP
    have hP1 : TokAll P (p.heap ++ e1) t :=
      TokAll.congr hP fun n hn => (Heap.obs_append_left p.heap e1 n (ht.lt n hn)).1
    obtain ⟨h5, h6⟩ := b6 P hn hP1 (a3.tokAll hP)
    exact (TokAll.node (TokAll.congr h5 fun n _ => c4 n) (TokAll.congr h6 fun n _ => c4 n)).1

end PState

theorem OpDone.congr {nt : Nat} {h0 : Heap} {p : PState} {t : Tree} {ts : List Tree}
    {F F' : (List Sym → Prop) → List Sym → Prop} {res : M PState}
    (H : OpDone nt h0 p t ts F res) (hF : ∀ L, F L = F' L) : OpDone nt h0 p t ts F' res := by
  obtain ⟨h', t', a1, a2, a3, a4, a5, a6⟩ := H
  exact ⟨h', t', a1, a2, a3, a4, fun acc => by rw [a5, hF], a6⟩

theorem OpDone.trans {nt : Nat} {h0 : Heap} {p : PState} {t : Tree} {ts : List Tree}
    {F G : (List Sym → Prop) → List Sym → Prop} {res : M PState} {k : PState → M PState}
    (H : OpDone nt h0 p t ts F res)
    (K : ∀ p' t', p'.trees = t' :: ts → Fresh nt h0 p'.heap t' → OpDone nt h0 p' t' ts G (k p')) :
    OpDone nt h0 p t ts (fun L => G (F L)) (res >>= k) := by
  obtain ⟨h1, t1, rfl, a2, a3, a4, a5, a6⟩ := H
  obtain ⟨h2, t2, b1, b2, b3, b4, b5, b6⟩ := K { p with heap := h1, trees := t1 :: ts } t1 rfl a2
  refine ⟨h2, t2, b1, b2, a3.trans b3 ?_, ?_, ?_, ?_⟩
  · intro n hn hlt
    rcases a4 n hn with h | h
    · exact h
    · omega
  · intro n hn
    rcases b4 n hn with h | h
    · exact a4 n h
    · exact .inr (Nat.le_trans a3.1 h)
  · intro acc
    rw [b5]
    simp only [a5]
  · intro P hn h1
    exact b6 P hn (a6 P hn h1)

theorem OpDone.refl {nt : Nat} {h0 : Heap} {p : PState} {t : Tree} {ts : List Tree}
    (hp : p.trees = t :: ts) (ht : Fresh nt h0 p.heap t) :
    OpDone nt h0 p t ts id (.ok p) :=
  ⟨p.heap, t, by rw [← hp], ht, Frame.refl _ _, fun _ => .inl, fun _ => rfl, fun _ _ h => h⟩

namespace PState

theorem repeatCounts_spec (tr : Traits) (h0 : Heap) (p : PState) (t : Tree) (ts : List Tree)
    (hp : p.trees = t :: ts) (ht : Fresh tr.nullToken h0 p.heap t) (g : Greedy) (hg : g ≠ .yes)
    (lo : Nat) (hi : Option Nat) (hb : BoundsOk lo hi) :
    OpDone tr.nullToken h0 p t ts (RepLang lo hi)
      (p.repeatCounts tr g lo (hiParts lo hi).1 (hiParts lo hi).2) := by
  unfold repeatCounts
  by_cases h1 : lo = 1 ∧ hi = some 1
  · obtain ⟨rfl, rfl⟩ := h1
    rw [if_pos (by simp [hiParts])]
    exact (OpDone.refl hp ht).congr fun L => by rw [← pow_eq_rep, pow_one]; rfl
  · rw [if_neg (by
      rintro ⟨rfl, h⟩
      cases hi with
      | none => simp [hiParts] at h
      | some k =>
        simp only [hiParts] at h
        split at h
        · rename_i hk; exact h1 ⟨rfl, by rw [hk]⟩
        · simp at h)]
    have first : OpDone tr.nullToken h0 p t ts (fun L => if lo = 0 then Opt L else L)
        (if lo = 0 then p.optional tr g else .ok p) := by
      split
      · exact optional_spec tr h0 p t ts hp ht g hg
      · exact OpDone.refl hp ht
    refine (first.trans (G := fun L => if lo = 0 then Pow L (hiMax hi) else RepLang lo hi L) ?_).congr ?_
    · intro p' t' hp' ht'
      have htop : (if lo > 0 then lo else (hiParts lo hi).2) = if lo > 0 then lo else hiMax hi := by
        by_cases h0' : lo = 0
        · subst h0'
          rcases hb with ⟨h2, _⟩ | ⟨h, rfl, h2, h3⟩
          · omega
          · have : ¬ h = 0 := by omega
            simp [hiParts, hiMax, this]
        · rw [if_pos (by omega), if_pos (by omega)]
      have H := (repeatLoops_spec tr h0 p' t' ts hp' ht' g hg lo hi hb h1 _ htop).congr
        (F' := fun L => if lo = 0 then Pow L (hiMax hi) else RepLang lo hi L) fun L => ?_
      · rw [hp'] at H ⊢
        exact H
      by_cases h0' : lo = 0
      · subst h0'
        simp only [Nat.lt_irrefl, gt_iff_lt, if_false, if_true] at htop ⊢
        rw [htop]
      · simp only [if_neg h0']
    · intro L
      by_cases h0' : lo = 0
      · subst h0'
        rcases hb with ⟨h2, _⟩ | ⟨h, rfl, h2, h3⟩
        · omega
        · simp only [if_true, hiMax]
          exact repLang_zero h
      · simp only [if_neg h0']

end PState
end Lexertl
