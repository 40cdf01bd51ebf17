import Verif.Proofs.Forest
import Verif.Proofs.Dfa
import Verif.Props.Alphabet
import Verif.Model.Lookup

/-
The subset construction applied to the trees of a rule list: what the rows of the
table mean.
-/
namespace Lexertl
open Spec

/-- Trees `ts` of the rules of one lexer state: rule `j` has end node data `d j` and
words `K j`. -/
structure Bundle (tr : Traits) (m : CharsetMap) (h : Heap) (ts : List (Tree × Nat)) (d : Nat → NodeData)
    (K : Nat → List Sym → Prop) : Prop where
  tree : ∀ j t, ts[j]? = some t → ∃ b e, RuleTree tr m h b e t.1 t.2 (d j) (K j)
  sep : ts.Pairwise (fun s t => ∀ a ∈ s.1.pos, ∀ b ∈ t.1.pos, a < b)
  ids : IdsOk tr m
  good : ∀ c ∈ m, GoodTok c.1

/-- Alphabet classes: `cls i x` says that character `x` is in class `i`. -/
structure ClsOk (m : CharsetMap) (mapping : List (List Nat)) (ncls : Nat) (cls : Nat → Nat → Prop) :
    Prop where
  ne : ∀ i, i < ncls → ∃ x, cls i x
  lt : ∀ i x, cls i x → i < ncls
  disj : ∀ i j x, cls i x → cls j x → i = j
  map : ∀ c ∈ m, ∃ s, mapping[c.2]? = some s ∧ s.Pairwise (· < ·) ∧ (∀ i ∈ s, i < ncls) ∧
    ∀ x, Mem x c.1 ↔ ∃ i ∈ s, cls i x

/-- Table index `i` belongs to symbol `s`. -/
def SymIs (tr : Traits) (cls : Nat → Nat → Prop) : Sym → Nat → Prop
  | .ch x, i => cls i x
  | .bol, i => i = tr.bolToken
  | .eol, i => i = tr.eolToken

/-- Node `n` belongs to rule `j`. -/
def Rk (ts : List (Tree × Nat)) (n j : Nat) : Prop := ∃ t, ts[j]? = some t ∧ n ∈ t.1.act

/-- Node `a` belongs to no later rule than `b`. -/
def Le (ts : List (Tree × Nat)) (a b : Nat) : Prop := ∀ i j, Rk ts a i → Rk ts b j → i ≤ j

/-- First positions of all the rules. -/
def starts (ts : List (Tree × Nat)) : List Nat := ts.flatMap (·.1.firstpos)

theorem dedup_sublist (l : List Nat) : ∀ acc, ∃ x, dedup acc l = acc ++ x ∧ x.Sublist l := by
  induction l with
  | nil => intro acc; exact ⟨[], by simp [dedup], .slnil⟩
  | cons a l ih =>
    intro acc
    unfold dedup
    split
    · obtain ⟨x, h1, h2⟩ := ih acc
      exact ⟨x, h1, h2.cons a⟩
    · obtain ⟨x, h1, h2⟩ := ih (acc ++ [a])
      exact ⟨a :: x, by rw [h1]; simp, h2.cons_cons a⟩

theorem mergeFollow_pairwise {R : Nat → Nat → Prop} (r : List Nat) : ∀ (acc : List Nat),
    acc.Pairwise R → (∀ a ∈ acc, ∀ b ∈ r, R a b) → (∀ a ∈ r, ∀ b ∈ r, R a b) →
    (Equivset.mergeFollow acc r).Pairwise R := by
  unfold Equivset.mergeFollow
  induction r with
  | nil => intro acc h _ _; exact h
  | cons x r ih =>
    intro acc h1 h2 h3
    rw [List.foldl_cons]
    have h3' : ∀ a ∈ r, ∀ b ∈ r, R a b := fun a ha b hb => h3 a (by simp [ha]) b (by simp [hb])
    split
    · exact ih acc h1 (fun a ha b hb => h2 a ha b (by simp [hb])) h3'
    · refine ih _ ?_ ?_ h3'
      · rw [List.pairwise_append]
        exact ⟨h1, by simp, fun a ha b hb => by simp at hb; subst hb; exact h2 a ha b (by simp)⟩
      · intro a ha b hb
        rcases List.mem_append.1 ha with ha | ha
        · exact h2 a ha b (by simp [hb])
        · simp at ha; subst ha; exact h3 a (by simp) b (by simp [hb])

namespace Bundle
variable {tr : Traits} {m : CharsetMap} {h : Heap} {ts : List (Tree × Nat)} {d : Nat → NodeData}
  {K : Nat → List Sym → Prop}

theorem rk_inj (B : Bundle tr m h ts d K) {n i j : Nat} (h1 : Rk ts n i) (h2 : Rk ts n j) : i = j := by
  obtain ⟨s, hs, ns⟩ := h1
  obtain ⟨t, ht, nt⟩ := h2
  have hs' := List.getElem?_eq_some_iff.1 hs
  have ht' := List.getElem?_eq_some_iff.1 ht
  have := List.pairwise_iff_getElem.1 B.sep
  rcases Nat.lt_trichotomy i j with hlt | rfl | hlt
  · have := this i j hs'.1 ht'.1 hlt n (by rw [hs'.2]; exact s.1.act_sub n ns) n
      (by rw [ht'.2]; exact t.1.act_sub n nt)
    omega
  · rfl
  · have := this j i ht'.1 hs'.1 hlt n (by rw [ht'.2]; exact t.1.act_sub n nt) n
      (by rw [hs'.2]; exact s.1.act_sub n ns)
    omega

theorem le_of_rk (B : Bundle tr m h ts d K) {a b i j : Nat} (h1 : Rk ts a i) (h2 : Rk ts b j)
    (hij : i ≤ j) : Le ts a b := by
  intro i' j' h1' h2'
  rw [B.rk_inj h1' h1, B.rk_inj h2' h2]
  exact hij

/-- Follow positions stay in the same rule. -/
theorem rk_fol (B : Bundle tr m h ts d K) {n j q : Nat} (h1 : Rk ts n j) (h2 : q ∈ h.fol n) : Rk ts q j := by
  obtain ⟨t, ht, nt⟩ := h1
  obtain ⟨b, e₀, H⟩ := B.tree j t ht
  rw [H.lay.fol n (t.1.act_sub n nt)] at h2
  exact ⟨t, ht, t.1.follow_act n q h2⟩

theorem rk_starts {q : Nat} (h1 : q ∈ starts ts) : ∃ j, Rk ts q j := by
  obtain ⟨t, ht, hq⟩ := List.mem_flatMap.1 h1
  obtain ⟨j, hj⟩ := List.getElem?_of_mem ht
  exact ⟨j, t, hj, t.1.firstpos_act q hq⟩

/-- What the leaves of a rule look like. -/
theorem node (B : Bundle tr m h ts d K) {n j : Nat} (h1 : Rk ts n j) :
    n < h.length ∧ ((∃ e, h.finOf n = some e) ∨ h.tokOf n = some tr.bolToken ∨
      h.tokOf n = some tr.eolToken ∨ ∃ c ∈ m, h.tokOf n = some c.2) := by
  obtain ⟨t, ht, nt⟩ := h1
  obtain ⟨b, e₀, H⟩ := B.tree j t ht
  have hp := t.1.act_sub n nt
  have hl := H.lay.wf.lt n hp
  refine ⟨hl, ?_⟩
  have hnull := Tree.Wf.act H.lay.wf n nt
  cases htk : h.tokOf n with
  | none =>
    left
    have hc : h[n]? = some h[n] := List.getElem?_eq_getElem hl
    unfold Heap.tokOf at htk
    unfold Heap.finOf
    rw [hc] at htk ⊢
    rcases he : h[n] with ⟨d', f'⟩
    rw [he] at htk
    cases d' with
    | leaf => cases htk
    | fin => exact ⟨_, rfl⟩
  | some tk =>
    right
    rcases H.toks n hp tk htk with h3 | ⟨_, h3⟩ | ⟨_, h3⟩ | ⟨c, hc, h3⟩
    · rw [htk, h3] at hnull; exact absurd rfl hnull
    · left; rw [h3]
    · right; left; rw [h3]
    · right; right; exact ⟨c, hc, by rw [h3]⟩

theorem fol_bol (B : Bundle tr m h ts d K) {n j q : Nat} (h1 : Rk ts n j) (h2 : q ∈ h.fol n) :
    h.tokOf q ≠ some tr.bolToken := by
  obtain ⟨t, ht, nt⟩ := h1
  obtain ⟨b, e₀, H⟩ := B.tree j t ht
  rw [H.lay.fol n (t.1.act_sub n nt)] at h2
  exact H.folBol n q h2

/-- The end node of rule `j` is reached exactly by the words of the rule. -/
theorem words (B : Bundle tr m h ts d K) {j : Nat} {t : Tree × Nat} (ht : ts[j]? = some t) (u : List Sym) :
    Tree.after h.fol (Reads (tokReads tr m) h) (starts ts) u t.2 ↔ K j u := by
  obtain ⟨b, e₀, H⟩ := B.tree j t ht
  rw [← H.words u]
  have hsplit : ∀ (l : List (Tree × Nat)) q, Tree.after h.fol (Reads (tokReads tr m) h) (starts l) u q ↔
      ∃ s ∈ l, Tree.after h.fol (Reads (tokReads tr m) h) s.1.firstpos u q := by
    intro l q
    induction l with
    | nil =>
      simp only [starts, List.flatMap_nil]
      cases u <;> simp [Tree.after]
    | cons s l ih =>
      have : starts (s :: l) = s.1.firstpos ++ starts l := by simp [starts]
      rw [this, Tree.after_union, ih]
      simp
  rw [hsplit]
  constructor
  · rintro ⟨s, hs, ha⟩
    obtain ⟨i, hi⟩ := List.getElem?_of_mem hs
    have h2 := Tree.after_mem (A := Reads (tokReads tr m) h) (fun q => Rk ts q i)
      (fun p hp q hq => B.rk_fol hp hq) u s.1.firstpos
      (fun p hp => ⟨s, hi, s.1.firstpos_act p hp⟩) _ ha
    have h3 : Rk ts t.2 j := by
      refine ⟨t, ht, ?_⟩
      exact t.1.lastpos_act _ (by rw [H.last]; simp)
    have := B.rk_inj h2 h3
    subst this
    rw [hi] at ht
    cases ht
    exact ha
  · intro ha
    exact ⟨t, List.mem_of_getElem? ht, ha⟩

theorem fin_rk (B : Bundle tr m h ts d K) {j : Nat} {t : Tree × Nat} (ht : ts[j]? = some t) :
    Rk ts t.2 j ∧ h.finOf t.2 = some (d j) := by
  obtain ⟨b, e₀, H⟩ := B.tree j t ht
  exact ⟨⟨t, ht, t.1.lastpos_act _ (by rw [H.last]; simp)⟩, H.fin⟩

theorem fin_only (B : Bundle tr m h ts d K) {n j : Nat} {e : NodeData} (hr : Rk ts n j)
    (he : h.finOf n = some e) : ∃ t, ts[j]? = some t ∧ n = t.2 := by
  obtain ⟨t, ht, nt⟩ := hr
  obtain ⟨b, e₀, H⟩ := B.tree j t ht
  exact ⟨t, ht, H.only n (t.1.act_sub n nt) e he⟩

/-- The first end node of an ordered position list is that of the earliest rule
ending there. -/
theorem firstEnd_eq (B : Bundle tr m h ts d K) (v : List Nat) (h1 : ∀ n ∈ v, ∃ j, Rk ts n j)
    (h2 : v.Pairwise (Le ts)) :
    (firstEnd h v = .ok none ∧ ∀ (j : Nat) (t : Tree × Nat), ts[j]? = some t → t.2 ∉ v) ∨
    ∃ (j : Nat) (t : Tree × Nat), ts[j]? = some t ∧ t.2 ∈ v ∧ firstEnd h v = .ok (some (d j)) ∧
      ∀ (i : Nat) (s : Tree × Nat), i < j → ts[i]? = some s → s.2 ∉ v := by
  induction v with
  | nil => left; exact ⟨rfl, by simp⟩
  | cons n v ih =>
    obtain ⟨j, hj⟩ := h1 n (by simp)
    rw [List.pairwise_cons] at h2
    by_cases hf : ∃ e, h.finOf n = some e
    · obtain ⟨e, he⟩ := hf
      obtain ⟨t, ht, rfl⟩ := B.fin_only hj he
      have hd := (B.fin_rk ht).2
      right
      refine ⟨j, t, ht, by simp, ?_, ?_⟩
      · obtain ⟨a, b, c, e', f, g, i, k, hc, he'⟩ := Heap.cell_fin hd
        rw [firstEnd, hc, he']
      · intro i s hi hs hmem
        rcases List.mem_cons.1 hmem with h0 | h0
        · have := B.rk_inj (h0 ▸ (B.fin_rk hs).1) (B.fin_rk ht).1
          omega
        · have := h2.1 s.2 h0 j i (B.fin_rk ht).1 (B.fin_rk hs).1
          omega
    · have hnf : ∀ (j : Nat) (t : Tree × Nat), ts[j]? = some t → t.2 ≠ n := by
        intro j t ht h0
        exact hf ⟨_, h0 ▸ (B.fin_rk ht).2⟩
      obtain ⟨tk, htk⟩ : ∃ tk, h.tokOf n = some tk := by
        rcases (B.node hj).2 with h3 | h3 | h3 | ⟨c, _, h3⟩
        · exact absurd h3 hf
        · exact ⟨_, h3⟩
        · exact ⟨_, h3⟩
        · exact ⟨_, h3⟩
      have hstep : firstEnd h (n :: v) = firstEnd h v := by rw [firstEnd, Heap.cell_leaf htk]
      rw [hstep]
      rcases ih (fun q hq => h1 q (by simp [hq])) h2.2 with ⟨a, b⟩ | ⟨i, t, a, b, c, e⟩
      · left
        refine ⟨a, fun j t ht hm => ?_⟩
        rcases List.mem_cons.1 hm with h0 | h0
        · exact hnf j t ht h0
        · exact b j t ht h0
      · right
        refine ⟨i, t, a, by simp [b], c, fun k s hk hs hm => ?_⟩
        rcases List.mem_cons.1 hm with h0 | h0
        · exact hnf k s hs h0
        · exact e k s hk hs h0

/-- Merging the follow positions of an ordered list keeps the order. -/
theorem follAll_le (B : Bundle tr m h ts d K) (v : List Nat) (h1 : ∀ n ∈ v, ∃ j, Rk ts n j)
    (h2 : v.Pairwise (Le ts)) : (follAll h v).Pairwise (Le ts) := by
  have same : ∀ n, (∃ j, Rk ts n j) → ∀ a ∈ h.fol n, ∀ b ∈ h.fol n, Le ts a b := by
    rintro n ⟨j, hj⟩ a ha b hb
    exact B.le_of_rk (B.rk_fol hj ha) (B.rk_fol hj hb) (Nat.le_refl _)
  have main : ∀ (v : List Nat), (∀ n ∈ v, ∃ j, Rk ts n j) → v.Pairwise (Le ts) → ∀ acc : List Nat,
      acc.Pairwise (Le ts) → (∀ a ∈ acc, ∃ i, Rk ts a i ∧ ∀ n ∈ v, ∀ j, Rk ts n j → i ≤ j) →
      (v.foldl (fun acc m => Equivset.mergeFollow acc (h.fol m)) acc).Pairwise (Le ts) := by
    intro v
    induction v with
    | nil => intro _ _ acc h3 _; exact h3
    | cons n v ih =>
      intro h1 h2 acc h3 h4
      rw [List.pairwise_cons] at h2
      obtain ⟨j, hj⟩ := h1 n (by simp)
      rw [List.foldl_cons]
      refine ih (fun q hq => h1 q (by simp [hq])) h2.2 _ ?_ ?_
      · refine mergeFollow_pairwise _ _ h3 ?_ (same n ⟨j, hj⟩)
        intro a ha b hb
        obtain ⟨i, hi, hi2⟩ := h4 a ha
        exact B.le_of_rk hi (B.rk_fol hj hb) (hi2 n (by simp) j hj)
      · intro a ha
        rw [Equivset.mem_mergeFollow] at ha
        rcases ha with ha | ha
        · obtain ⟨i, hi, hi2⟩ := h4 a ha
          exact ⟨i, hi, fun q hq => hi2 q (by simp [hq])⟩
        · exact ⟨j, B.rk_fol hj ha, fun q hq k hk => h2.1 q hq j k hj hk⟩
  cases v with
  | nil => simp [follAll]
  | cons n v =>
    rw [List.pairwise_cons] at h2
    obtain ⟨j, hj⟩ := h1 n (by simp)
    rw [follAll]
    refine main v (fun q hq => h1 q (by simp [hq])) h2.2 _ ?_ ?_
    · exact List.pairwise_of_forall_mem_list (same n ⟨j, hj⟩)
    · intro a ha
      exact ⟨j, B.rk_fol hj ha, fun q hq k hk => h2.1 q hq j k hj hk⟩

theorem starts_le (B : Bundle tr m h ts d K) : (starts ts).Pairwise (Le ts) := by
  have main : ∀ (l : List (Tree × Nat)) (k : Nat), (∀ i : Nat, l[i]? = ts[k + i]?) → (starts l).Pairwise (Le ts) := by
    intro l
    induction l with
    | nil => intro k _; simp [starts]
    | cons s l ih =>
      intro k hk
      have hs : ts[k]? = some s := by rw [← Nat.add_zero k, ← hk 0]; rfl
      have : starts (s :: l) = s.1.firstpos ++ starts l := by simp [starts]
      rw [this, List.pairwise_append]
      refine ⟨?_, ih (k + 1) fun i => by
        rw [show k + 1 + i = k + (i + 1) from by omega, ← hk (i + 1)]; rfl, ?_⟩
      · exact List.pairwise_of_forall_mem_list fun a ha b hb =>
          B.le_of_rk ⟨s, hs, s.1.firstpos_act a ha⟩ ⟨s, hs, s.1.firstpos_act b hb⟩ (Nat.le_refl _)
      · intro a ha b hb
        obtain ⟨t, ht, hq⟩ := List.mem_flatMap.1 hb
        obtain ⟨i, hi⟩ := List.getElem?_of_mem ht
        have : ts[k + (i + 1)]? = some t := by rw [← hk (i + 1)]; exact hi
        exact B.le_of_rk ⟨s, hs, s.1.firstpos_act a ha⟩ ⟨t, this, t.1.firstpos_act b hq⟩ (by omega)
  exact main ts 0 fun i => by simp

end Bundle

/-- What holds of every position list met while building the table. -/
structure MQ (tr : Traits) (m : CharsetMap) (h : Heap) (ts : List (Tree × Nat)) (v : List Nat) : Prop where
  rk : ∀ n ∈ v, ∃ j, Rk ts n j
  ord : v.Pairwise (Le ts)
  reach : ∃ u, ∀ q, q ∈ v ↔ Tree.after h.fol (Reads (tokReads tr m) h) (starts ts) u q
  bol : (∀ n ∈ v, h.tokOf n ≠ some tr.bolToken) ∨ ∀ q, q ∈ v ↔ q ∈ starts ts

section
variable {E : DfaEnv} {m : CharsetMap} {ts : List (Tree × Nat)} {d : Nat → NodeData}
  {K : Nat → List Sym → Prop} {ncls : Nat} {cls : Nat → Nat → Prop}

theorem Bundle.idx_reads (B : Bundle E.tr m E.heap ts d K) (C : ClsOk m E.mapping ncls cls)
    (hn : ncls + 7 ≤ E.tr.npos) {n j : Nat} (hr : Rk ts n j) {s : Sym} {i : Nat}
    (hs : SymIs E.tr cls s i) :
    i ∈ idxOf E.tr E.mapping E.heap n ↔ Reads (tokReads E.tr m) E.heap n s := by
  have hb : E.tr.bolToken = E.tr.npos - 1 := rfl
  have he : E.tr.eolToken = E.tr.npos - 2 := rfl
  have h0 : E.tr.nullToken = E.tr.npos := rfl
  unfold idxOf Reads
  rcases (B.node hr).2 with ⟨e, h1⟩ | h1 | h1 | ⟨c, hc, h1⟩
  · rw [Heap.tok_of_fin h1]; simp
  · rw [h1]
    simp only [Option.some.injEq, exists_eq_left']
    rw [if_neg (by rw [hb, h0]; omega), if_pos (by simp), List.mem_singleton]
    cases s with
    | ch x =>
      have := C.lt i x hs
      constructor
      · intro h2; omega
      · rintro ⟨c, hc, h2, _⟩
        have := B.ids.small c hc
        omega
    | bol => simp only [SymIs] at hs; simp [hs, tokReads]
    | eol => simp only [SymIs] at hs; simp only [hs, tokReads]; omega
  · rw [h1]
    simp only [Option.some.injEq, exists_eq_left']
    rw [if_neg (by rw [he, h0]; omega), if_pos (by simp), List.mem_singleton]
    cases s with
    | ch x =>
      have := C.lt i x hs
      constructor
      · intro h2; omega
      · rintro ⟨c, hc, h2, _⟩
        have := B.ids.small c hc
        omega
    | bol => simp only [SymIs] at hs; simp only [hs, tokReads]; omega
    | eol => simp only [SymIs] at hs; simp [hs, tokReads]
  · rw [h1]
    simp only [Option.some.injEq, exists_eq_left']
    have hsm := B.ids.small c hc
    rw [if_neg (by omega), if_neg (by omega)]
    obtain ⟨t, ht, t1, t2, t3⟩ := C.map c hc
    rw [ht]
    simp only [Option.getD_some]
    cases s with
    | ch x =>
      simp only [SymIs] at hs
      constructor
      · intro h2; exact ⟨c, hc, rfl, (t3 x).2 ⟨i, h2, hs⟩⟩
      · rintro ⟨c', hc', h2, h3⟩
        rw [B.ids.inj c' hc' c hc h2] at h3
        obtain ⟨i', h4, h5⟩ := (t3 x).1 h3
        rw [C.disj i i' x hs h5]; exact h4
    | bol =>
      simp only [SymIs] at hs
      constructor
      · intro h2; have := t2 i h2; omega
      · intro h2; simp only [tokReads] at h2; omega
    | eol =>
      simp only [SymIs] at hs
      constructor
      · intro h2; have := t2 i h2; omega
      · intro h2; simp only [tokReads] at h2; omega

/-- The target of a transition: the follow positions of the nodes reading the
symbol. -/
theorem Bundle.mem_tgt (B : Bundle E.tr m E.heap ts d K) (C : ClsOk m E.mapping ncls cls)
    (hn : ncls + 7 ≤ E.tr.npos) {v : List Nat} (hv : ∀ n ∈ v, ∃ j, Rk ts n j) {s : Sym} {i : Nat}
    (hs : SymIs E.tr cls s i) (q : Nat) :
    q ∈ tgt E id v i ↔ ∃ p ∈ v, Reads (tokReads E.tr m) E.heap p s ∧ q ∈ E.heap.fol p := by
  unfold tgt hitsOf
  simp only [id]
  rw [mem_follAll]
  simp only [List.mem_filter, decide_eq_true_eq]
  constructor
  · rintro ⟨p, ⟨h1, h2⟩, h3⟩
    obtain ⟨j, hj⟩ := hv p h1
    exact ⟨p, h1, (B.idx_reads C hn hj hs).1 h2, h3⟩
  · rintro ⟨p, h1, h2, h3⟩
    obtain ⟨j, hj⟩ := hv p h1
    exact ⟨p, ⟨h1, (B.idx_reads C hn hj hs).2 h2⟩, h3⟩

theorem Bundle.nodeOk (B : Bundle E.tr m E.heap ts d K) (C : ClsOk m E.mapping ncls cls) {n j : Nat}
    (hr : Rk ts n j) : NodeOk E.tr E.mapping ncls E.heap n ∧ n < E.heap.length := by
  obtain ⟨h1, h2⟩ := B.node hr
  refine ⟨?_, h1⟩
  rcases h2 with h2 | h2 | h2 | ⟨c, hc, h2⟩
  · exact .inl h2
  · exact .inr ⟨_, h2, .inr (.inl rfl)⟩
  · exact .inr ⟨_, h2, .inr (.inr (.inl rfl))⟩
  · obtain ⟨s, s1, s2, s3, s4⟩ := C.map c hc
    refine .inr ⟨_, h2, .inr (.inr (.inr ⟨s, s1, ?_, s2, s3⟩))⟩
    rintro rfl
    obtain ⟨g1, g2, _⟩ := B.good c hc
    cases hc1 : c.1 with
    | nil => exact g2 hc1
    | cons r rs =>
      rw [hc1] at g1
      have : Mem r.1 c.1 := by
        rw [hc1]; exact ⟨r, by simp, Nat.le_refl _, g1.1 r (by simp)⟩
      obtain ⟨i, hi, _⟩ := (s4 _).1 this
      simp at hi

/-- What `$` must respect for its transitions to be made and kept. -/
structure EolOk (E : DfaEnv) (m : CharsetMap) (ts : List (Tree × Nat)) (ncls : Nat) : Prop where
  /-- the classes of CR and LF are known if there is a `$` -/
  idx : (∃ n j, Rk ts n j ∧ E.heap.tokOf n = some E.tr.eolToken) → E.cr < ncls ∧ E.nl < ncls
  /-- `$` does not follow a charset with CR -/
  crfol : ∀ u n c s, Tree.after E.heap.fol (Reads (tokReads E.tr m) E.heap) (starts ts) u n → c ∈ m → E.heap.tokOf n = some c.2 → E.mapping[c.2]? = some s → E.cr ∈ s →
    ∀ q ∈ E.heap.fol n, E.heap.tokOf q ≠ some E.tr.eolToken
  /-- where `$` is possible, CR and LF are not -/
  clash : ∀ u a n c s, Tree.after E.heap.fol (Reads (tokReads E.tr m) E.heap) (starts ts) u a →
    E.heap.tokOf a = some E.tr.eolToken →
    Tree.after E.heap.fol (Reads (tokReads E.tr m) E.heap) (starts ts) u n → c ∈ m →
    E.heap.tokOf n = some c.2 → E.mapping[c.2]? = some s → E.cr ∉ s ∧ E.nl ∉ s
  cnt : ∀ n j, Rk ts n j → eolCount E.tr E.heap (E.heap.fol n) ≤ 1
  /-- only one `$` is possible at a time -/
  one : ∀ u a b, Tree.after E.heap.fol (Reads (tokReads E.tr m) E.heap) (starts ts) u a →
    Tree.after E.heap.fol (Reads (tokReads E.tr m) E.heap) (starts ts) u b →
    E.heap.tokOf a = some E.tr.eolToken → E.heap.tokOf b = some E.tr.eolToken → a = b

/-- Looking for an end node among positions of the trees. -/
theorem Bundle.anyEnd_iff {tr : Traits} {m : CharsetMap} {h : Heap} {ts : List (Tree × Nat)}
    {d : Nat → NodeData} {K : Nat → List Sym → Prop} (B : Bundle tr m h ts d K) (v : List Nat)
    (hv : ∀ n ∈ v, ∃ j, Rk ts n j) :
    ∃ b, anyEnd h v = .ok b ∧ (b = true ↔ ∃ (j : Nat) (t : Tree × Nat), ts[j]? = some t ∧ t.2 ∈ v) := by
  induction v with
  | nil => exact ⟨false, rfl, by simp⟩
  | cons n v ih =>
    obtain ⟨b, h1, h2⟩ := ih fun q hq => hv q (by simp [hq])
    obtain ⟨j, hj⟩ := hv n (by simp)
    by_cases hf : ∃ e, h.finOf n = some e
    · obtain ⟨e, he⟩ := hf
      obtain ⟨t, ht, rfl⟩ := B.fin_only hj he
      obtain ⟨a, b, c, e', f, g, i, k, hc, _⟩ := Heap.cell_fin he
      refine ⟨true, ?_, ?_⟩
      · simp only [anyEnd, Heap.endState, hc, bind, Except.bind, pure, Except.pure, if_true]
      · exact ⟨fun _ => ⟨j, t, ht, by simp⟩, fun _ => rfl⟩
    · obtain ⟨tk, htk⟩ : ∃ tk, h.tokOf n = some tk := by
        rcases (B.node hj).2 with h3 | h3 | h3 | ⟨c, _, h3⟩
        · exact absurd h3 hf
        · exact ⟨_, h3⟩
        · exact ⟨_, h3⟩
        · exact ⟨_, h3⟩
      refine ⟨b, ?_, ?_⟩
      · simp only [anyEnd, Heap.endState, Heap.cell_leaf htk, bind, Except.bind, Bool.false_eq_true, if_false]
        exact h1
      · rw [h2]
        constructor
        · rintro ⟨j, t, a, b⟩; exact ⟨j, t, a, by simp [b]⟩
        · rintro ⟨j, t, a, b⟩
          rcases List.mem_cons.1 b with h0 | h0
          · exact absurd ⟨_, h0 ▸ (B.fin_rk a).2⟩ hf
          · exact ⟨j, t, a, h0⟩

theorem followpos_ok {h : Heap} {n : Nat} (hn : n < h.length) : h.followpos n = .ok (h.fol n) := by
  unfold Heap.followpos Heap.fol
  rw [List.getElem?_eq_getElem hn]

theorem Bundle.cell (B : Bundle E.tr m E.heap ts d K) {n j : Nat} (hj : Rk ts n j)
    (hb : E.heap.tokOf n ≠ some E.tr.bolToken) :
    E.heap.endState n = .ok true ∨ (E.heap.endState n = .ok false ∧ E.heap.token n = .ok E.tr.eolToken ∧
      E.heap.tokOf n = some E.tr.eolToken) ∨
    ∃ c ∈ m, E.heap.endState n = .ok false ∧ E.heap.token n = .ok c.2 ∧ E.heap.tokOf n = some c.2 ∧
      c.2 ≠ E.tr.eolToken := by
  rcases (B.node hj).2 with ⟨e, h1⟩ | h1 | h1 | ⟨c, hc, h1⟩
  · obtain ⟨a, b, c, e', f, g, i, k, hcell, _⟩ := Heap.cell_fin h1
    left
    simp only [Heap.endState, hcell]
  · exact absurd h1 hb
  · right; left
    have hcell := Heap.cell_leaf h1
    simp only [Heap.endState, Heap.token, hcell, h1, and_self]
  · right; right
    have hcell := Heap.cell_leaf h1
    have hsm := B.ids.small c hc
    refine ⟨c, hc, ?_, ?_, h1, ?_⟩
    · simp only [Heap.endState, hcell]
    · simp only [Heap.token, hcell]
    · simp only [Traits.eolToken]; omega

theorem Bundle.eraseEol_id (B : Bundle E.tr m E.heap ts d K) (l : List Nat)
    (hl : ∀ n ∈ l, (∃ j, Rk ts n j) ∧ E.heap.tokOf n ≠ some E.tr.bolToken ∧
      E.heap.tokOf n ≠ some E.tr.eolToken) : eraseEol E.tr E.heap l = .ok l := by
  induction l with
  | nil => rfl
  | cons n l ih =>
    have ih' := ih fun q hq => hl q (by simp [hq])
    obtain ⟨⟨j, hj⟩, hb, he⟩ := hl n (by simp)
    rcases B.cell hj hb with h1 | ⟨_, _, h1⟩ | ⟨c, hc, h1, h2, h3, h4⟩
    · simp only [eraseEol, h1, bind, Except.bind, pure, Except.pure, if_true, ih']
    · exact absurd h1 he
    · simp only [eraseEol, h1, h2, bind, Except.bind, pure, Except.pure, Bool.false_eq_true, if_false,
        if_neg h4, ih']

theorem Bundle.pruneEolCr_id (B : Bundle E.tr m E.heap ts d K) (C : ClsOk m E.mapping ncls cls) (l : List Nat)
    (hl : ∀ n ∈ l, (∃ j, Rk ts n j) ∧ E.heap.tokOf n ≠ some E.tr.bolToken ∧
      E.heap.tokOf n ≠ some E.tr.eolToken) (cs : List Nat)
    (hcs : ∀ n ∈ cs, (∃ j, Rk ts n j) ∧ E.heap.tokOf n ≠ some E.tr.bolToken ∧
      E.heap.tokOf n ≠ some E.tr.eolToken) : ∀ node, (∃ j, Rk ts node j) →
    ∃ node', pruneEolCr E.tr E.heap E.mapping E.nl cs node l = .ok (node', l) ∧ ∃ j, Rk ts node' j := by
  induction cs with
  | nil => intro node hn; exact ⟨node, rfl, hn⟩
  | cons c cs ih =>
    intro node hn
    have ih' := ih (fun q hq => hcs q (by simp [hq]))
    obtain ⟨⟨j, hj⟩, hb, he⟩ := hcs c (by simp)
    rcases B.cell hj hb with h1 | ⟨_, _, h1⟩ | ⟨x, hx, h1, h2, h3, h4⟩
    · simp only [pruneEolCr, h1, bind, Except.bind, if_true]
      exact ih' node hn
    · exact absurd h1 he
    · obtain ⟨s, s1, _⟩ := C.map x hx
      simp only [pruneEolCr, h1, h2, bind, Except.bind, Bool.false_eq_true, if_false, mappingAt, s1]
      split
      · rw [followpos_ok (B.node hj).1]
        obtain ⟨b, b1, _⟩ := B.anyEnd_iff (E.heap.fol c) fun n hn => ⟨j, B.rk_fol hj hn⟩
        simp only [b1]
        cases b with
        | true =>
          simp only [if_true, B.eraseEol_id l hl]
          refine ih' _ ?_
          cases hl0 : l.getLast? with
          | none => 
            rw [List.getLastD_eq_getLast?, hl0]; exact hn
          | some y => 
            rw [List.getLastD_eq_getLast?, hl0]; exact (hl y (List.mem_of_getLast? hl0)).1
        | false =>
          simp only [Bool.false_eq_true, if_false]
          exact ih' node hn
      · exact ih' node hn

theorem Bundle.pruneNLloop_id (B : Bundle E.tr m E.heap ts d K) (C : ClsOk m E.mapping ncls cls) (l : List Nat) :
    ∀ fuel, l.length ≤ fuel → (∀ n ∈ l, (∃ j, Rk ts n j) ∧ E.heap.tokOf n ≠ some E.tr.bolToken ∧
      E.heap.tokOf n ≠ some E.tr.eolToken) →
    (∀ n ∈ l, ∀ c s, c ∈ m → E.heap.tokOf n = some c.2 → E.mapping[c.2]? = some s → E.cr ∉ s ∧ E.nl ∉ s) →
    pruneNLloop E.heap E.mapping E.cr E.nl fuel l = .ok l := by
  induction l with
  | nil => intro fuel _ _ _; cases fuel <;> rfl
  | cons n l ih =>
    intro fuel hf hl hcl
    match fuel, hf with
    | fuel + 1, hf =>
      simp only [List.length_cons] at hf
      have ih' := ih fuel (by omega) (fun q hq => hl q (by simp [hq])) fun q hq => hcl q (by simp [hq])
      obtain ⟨⟨j, hj⟩, hb, he⟩ := hl n (by simp)
      rcases B.cell hj hb with h1 | ⟨_, _, h1⟩ | ⟨x, hx, h1, h2, h3, h4⟩
      · simp only [pruneNLloop, h1, bind, Except.bind, pure, Except.pure, if_true, ih']
      · exact absurd h1 he
      · obtain ⟨s, s1, _⟩ := C.map x hx
        obtain ⟨k1, k2⟩ := hcl n (by simp) x s hx h3 s1
        simp only [pruneNLloop, h1, h2, bind, Except.bind, pure, Except.pure, Bool.false_eq_true, if_false,
          mappingAt, s1, if_neg k1, if_neg k2, ih']

/-- Nothing is pruned. -/
theorem Bundle.prune_id (B : Bundle E.tr m E.heap ts d K) (C : ClsOk m E.mapping ncls cls)
    (l : List Nat) :
    ∀ fuel, (∀ n ∈ l, ∀ c s, c ∈ m → E.heap.tokOf n = some c.2 → E.mapping[c.2]? = some s → E.cr ∈ s →
      ∀ q ∈ E.heap.fol n, E.heap.tokOf q ≠ some E.tr.eolToken) → l.length ≤ fuel → (∀ n ∈ l, (∃ j, Rk ts n j) ∧ E.heap.tokOf n ≠ some E.tr.bolToken) →
    eolCount E.tr E.heap l ≤ 1 →
    ((∃ a ∈ l, E.heap.tokOf a = some E.tr.eolToken) → ∀ n ∈ l, ∀ c s, c ∈ m → E.heap.tokOf n = some c.2 →
      E.mapping[c.2]? = some s → E.cr ∉ s ∧ E.nl ∉ s) →
    pruneEolClashes E.tr E.heap E.mapping E.cr E.nl fuel l = .ok l := by
  induction l with
  | nil => intro fuel _ _ _ _ _; cases fuel <;> rfl
  | cons n l ih =>
    intro fuel hcrfol hf hl hcnt hcl
    match fuel, hf with
    | fuel + 1, hf =>
      simp only [List.length_cons] at hf
      have hc1 : eolCount E.tr E.heap (n :: l) = eolCount E.tr E.heap [n] + eolCount E.tr E.heap l :=
        eolCount_append E.tr E.heap [n] l
      have ih' := ih fuel (fun q hq => hcrfol q (by simp [hq])) (by omega) (fun q hq => hl q (by simp [hq])) (by omega)
        fun ⟨a, ha, h⟩ q hq => hcl ⟨a, by simp [ha], h⟩ q (by simp [hq])
      obtain ⟨⟨j, hj⟩, hb⟩ := hl n (by simp)
      rcases B.cell hj hb with h1 | ⟨h1, h2, h3⟩ | ⟨x, hx, h1, h2, h3, h4⟩
      · simp only [pruneEolClashes, h1, bind, Except.bind, pure, Except.pure, if_true, ih']
      · have hl0 : ∀ q ∈ l, E.heap.tokOf q ≠ some E.tr.eolToken := by
          have h5 : eolCount E.tr E.heap [n] = 1 := by
            unfold eolCount
            rw [List.countP_singleton, h3]; simp
          have h6 : eolCount E.tr E.heap l = 0 := by omega
          unfold eolCount at h6
          rw [List.countP_eq_zero] at h6
          intro q hq
          simpa using h6 q hq
        have hp := B.pruneNLloop_id C l (l.length + 1) (by omega)
          (fun q hq => ⟨(hl q (by simp [hq])).1, (hl q (by simp [hq])).2, hl0 q hq⟩)
          (fun q hq => hcl ⟨n, by simp, h3⟩ q (by simp [hq]))
        simp only [pruneEolClashes, h1, h2, bind, Except.bind, pure, Except.pure, Bool.false_eq_true,
          if_false, if_true, hp, ih']
      · obtain ⟨s, s1, _⟩ := C.map x hx
        have hrest : pruneEol E.tr E.heap E.mapping E.cr E.nl n l = .ok l := by
          by_cases hs : E.cr ∈ s ∨ E.nl ∈ s
          · have hl0 : ∀ q ∈ l, (∃ j, Rk ts q j) ∧ E.heap.tokOf q ≠ some E.tr.bolToken ∧
                E.heap.tokOf q ≠ some E.tr.eolToken := by
              intro q hq
              refine ⟨(hl q (by simp [hq])).1, (hl q (by simp [hq])).2, fun h => ?_⟩
              have := hcl ⟨q, by simp [hq], h⟩ n (by simp) x s hx h3 s1
              rcases hs with hs | hs
              · exact this.1 hs
              · exact this.2 hs
            have herase := B.eraseEol_id l hl0
            have hmain : ∃ node', (if E.cr ∈ s then pruneEolCr E.tr E.heap E.mapping E.nl (E.heap.fol n) n l
                else .ok (n, l)) = .ok (node', l) ∧ ∃ j, Rk ts node' j := by
              split
              · rename_i hcr
                refine B.pruneEolCr_id C l hl0 _ (fun q hq => ⟨⟨j, B.rk_fol hj hq⟩, B.fol_bol hj hq, ?_⟩) n ⟨j, hj⟩
                exact hcrfol n (by simp) x s hx h3 s1 hcr q hq
              · exact ⟨n, rfl, j, hj⟩
            obtain ⟨node', n1, i, hi⟩ := hmain
            obtain ⟨b, b1, _⟩ := B.anyEnd_iff (E.heap.fol node') fun n hn => ⟨i, B.rk_fol hi hn⟩
            simp only [pruneEol, h2, bind, Except.bind, mappingAt, s1, followpos_ok (B.node hj).1]
            rw [n1]
            simp only
            split
            · rw [followpos_ok (B.node hi).1]
              simp only [b1]
              split
              · exact herase
              · rfl
            · rfl
          · have k1 : E.cr ∉ s := fun h => hs (.inl h)
            have k2 : E.nl ∉ s := fun h => hs (.inr h)
            simp only [pruneEol, h2, bind, Except.bind, mappingAt, s1, if_neg k1, if_neg k2]
        simp only [pruneEolClashes, h1, h2, bind, Except.bind, pure, Except.pure, Bool.false_eq_true,
          if_false, if_neg h4, hrest, ih']

theorem eolCount_merge {tr : Traits} {h : Heap} (r : List Nat) : ∀ acc : List Nat, eolCount tr h acc ≤ 1 →
    (∀ a b, a ∈ acc ∨ a ∈ r → b ∈ acc ∨ b ∈ r → h.tokOf a = some tr.eolToken → h.tokOf b = some tr.eolToken → a = b) →
    eolCount tr h (Equivset.mergeFollow acc r) ≤ 1 := by
  unfold Equivset.mergeFollow
  induction r with
  | nil => intro acc h1 _; exact h1
  | cons x r ih =>
    intro acc h1 h2
    rw [List.foldl_cons]
    split
    · exact ih acc h1 fun a b ha hb => h2 a b (by grind) (by grind)
    · rename_i hx
      refine ih _ ?_ fun a b ha hb => h2 a b (by grind) (by grind)
      rw [eolCount_append]
      by_cases hxe : h.tokOf x = some tr.eolToken
      · have : eolCount tr h acc = 0 := eolCount_zero fun n hn he => by
          have := h2 n x (.inl hn) (.inr (by simp)) he hxe
          exact hx (this ▸ hn)
        have := eolCount_single tr h x
        omega
      · have : eolCount tr h [x] = 0 := eolCount_zero (by simpa using hxe)
        omega

theorem eolCount_follAll {tr : Traits} {h : Heap} (v : List Nat)
    (hc : ∀ n ∈ v, eolCount tr h (h.fol n) ≤ 1)
    (h2 : ∀ a b, a ∈ follAll h v → b ∈ follAll h v → h.tokOf a = some tr.eolToken →
      h.tokOf b = some tr.eolToken → a = b) : eolCount tr h (follAll h v) ≤ 1 := by
  cases v with
  | nil => exact Nat.zero_le _
  | cons n v =>
    rw [follAll]
    have hm : ∀ q, q ∈ follAll h (n :: v) ↔ ∃ p ∈ n :: v, q ∈ h.fol p := mem_follAll h (n :: v)
    have main : ∀ (l acc : List Nat), (∀ x ∈ l, x ∈ v) → (∀ q ∈ acc, q ∈ follAll h (n :: v)) →
        eolCount tr h acc ≤ 1 → eolCount tr h (l.foldl (fun acc m => Equivset.mergeFollow acc (h.fol m)) acc) ≤ 1 := by
      intro l
      induction l with
      | nil => intro acc _ _ h; exact h
      | cons y l ih =>
        intro acc hl ha hcnt
        rw [List.foldl_cons]
        have hin : ∀ q, q ∈ acc ∨ q ∈ h.fol y → q ∈ follAll h (n :: v) := by
          rintro q (hq | hq)
          · exact ha q hq
          · exact (hm q).2 ⟨y, by simp [hl y (by simp)], hq⟩
        refine ih _ (fun x hx => hl x (by simp [hx])) (fun q hq => hin q ((Equivset.mem_mergeFollow ..).1 hq)) ?_
        exact eolCount_merge _ _ hcnt fun a b h3 h4 => h2 a b (hin a h3) (hin b h4)
    exact main v _ (fun _ h => h) (fun q hq => (hm q).2 ⟨n, by simp, hq⟩) (hc n (by simp))

theorem Bundle.envOk (B : Bundle E.tr m E.heap ts d K) (C : ClsOk m E.mapping ncls cls)
    (hsize : ncls + 7 ≤ E.size) (hnpos : E.size ≤ E.tr.npos) (hE : EolOk E m ts ncls) :
    EnvOk E ncls id (MQ E.tr m E.heap ts) := by
  have hn : ncls + 7 ≤ E.tr.npos := by omega
  have hsym : ∀ x, Valid E.tr ncls x → ∃ s, SymIs E.tr cls s x := by
    intro x hx
    rcases hx with h | h | h
    · obtain ⟨c, hc⟩ := C.ne x h; exact ⟨.ch c, hc⟩
    · exact ⟨.bol, h⟩
    · exact ⟨.eol, h⟩
  have hreach : ∀ v x, MQ E.tr m E.heap ts v → Valid E.tr ncls x → ∃ u, ∀ q, q ∈ tgt E id v x ↔
      Tree.after E.heap.fol (Reads (tokReads E.tr m) E.heap) (starts ts) u q := by
    intro v x hv hx
    obtain ⟨s, hs⟩ := hsym x hx
    obtain ⟨u, hu⟩ := hv.reach
    refine ⟨u ++ [s], fun q => ?_⟩
    rw [B.mem_tgt C hn hv.rk hs, Tree.after_snoc]
    constructor
    · rintro ⟨p, hp, h⟩; exact ⟨p, (hu p).1 hp, h⟩
    · rintro ⟨p, hp, h⟩; exact ⟨p, (hu p).2 hp, h⟩
  have hhits : ∀ v x, MQ E.tr m E.heap ts v →
      (∀ n ∈ hitsOf E.tr E.mapping E.heap v x, ∃ j, Rk ts n j) ∧
      (hitsOf E.tr E.mapping E.heap v x).Pairwise (Le ts) := by
    intro v x hv
    exact ⟨fun n hn => hv.rk n (List.mem_filter.1 hn).1, hv.ord.filter _⟩
  have htgt : ∀ v x, MQ E.tr m E.heap ts v → ∀ n ∈ tgt E id v x,
      (∃ j, Rk ts n j) ∧ E.heap.tokOf n ≠ some E.tr.bolToken := by
    intro v x hv n hn
    obtain ⟨p, hp, hq⟩ := (mem_follAll _ _ _).1 hn
    obtain ⟨j, hj⟩ := (hhits v x hv).1 p hp
    exact ⟨⟨j, B.rk_fol hj hq⟩, B.fol_bol hj hq⟩
  refine ⟨hsize, hnpos, ?_, ?_, rfl, ?_, ?_, ?_⟩
  · intro v hv n hn
    obtain ⟨j, hj⟩ := hv.rk n hn
    exact B.nodeOk C hj
  · intro v x hv hx
    obtain ⟨u, hu⟩ := hreach v x hv hx
    refine B.prune_id C _ _ (fun n hn c s => hE.crfol u n c s ((hu n).1 hn)) (Nat.le_refl _) (htgt v x hv) ?_ ?_
    · refine eolCount_follAll _ (fun n hn => ?_) fun a b ha hb => hE.one u a b ((hu a).1 ha) ((hu b).1 hb)
      obtain ⟨j, hj⟩ := (hhits v x hv).1 n hn
      exact hE.cnt n j hj
    · rintro ⟨a, ha, he⟩ n hn c s
      exact hE.clash u a n c s ((hu a).1 ha) he ((hu n).1 hn)
  · intro v x hv hx
    have hm : ∀ q, q ∈ dedup [] (tgt E id v x) ↔ q ∈ tgt E id v x := fun q => by rw [mem_dedup]; simp
    obtain ⟨u, hu⟩ := hreach v x hv hx
    refine ⟨?_, ?_, ⟨u, ?_⟩, .inl ?_⟩
    · intro n hn; exact (htgt v x hv n ((hm n).1 hn)).1
    · obtain ⟨y, h1, h2⟩ := dedup_sublist (tgt E id v x) []
      rw [h1, List.nil_append]
      exact (B.follAll_le _ (hhits v x hv).1 (hhits v x hv).2).sublist h2
    · intro q
      rw [hm, hu]
    · intro n hn; exact (htgt v x hv n ((hm n).1 hn)).2
  · intro v x hv _ n hn
    obtain ⟨j, hj⟩ := (htgt v x hv n hn).1
    exact (B.nodeOk C hj).1
  · intro a b ha hb hab
    rcases B.firstEnd_eq a ha.rk ha.ord with ⟨a1, a2⟩ | ⟨j, t, a1, a2, a3, a4⟩ <;>
      rcases B.firstEnd_eq b hb.rk hb.ord with ⟨b1, b2⟩ | ⟨i, s, b1, b2, b3, b4⟩
    · rw [a1, b1]
    · exact absurd ((hab _).2 b2) (a2 i s b1)
    · exact absurd ((hab _).1 a2) (b2 j t a1)
    · have : i = j := by
        rcases Nat.lt_trichotomy i j with h | h | h
        · exact absurd ((hab _).2 b2) (a4 i s h b1)
        · exact h
        · exact absurd ((hab _).1 a2) (b4 j t h a1)
      rw [a3, b3, this]


theorem nodup_lt_length (n : Nat) : ∀ l : List Nat, l.Nodup → (∀ x ∈ l, x < n) → l.length ≤ n := by
  induction n with
  | zero =>
    intro l _ h
    cases l with
    | nil => simp
    | cons a l => have := h a (by simp); omega
  | succ n ih =>
    intro l hn h
    have h1 := ih (l.erase n) (hn.erase n) fun x hx => by
      have h2 := h x (List.mem_of_mem_erase hx)
      have : x ≠ n := by
        rintro rfl
        exact hn.not_mem_erase hx
      omega
    have h2 := List.length_erase (l := l) (a := n)
    split at h2 <;> omega

/-- At most 256 classes. -/
theorem ClsOk.le {mapping : List (List Nat)} (C : ClsOk m mapping ncls cls)
    (hb : ∀ i x, cls i x → x < 256) : ncls ≤ 256 := by
  let rep : Nat → Nat := fun i => if h : i < ncls then Classical.choose (C.ne i h) else 0
  have hrep : ∀ i, i < ncls → cls i (rep i) := by
    intro i hi
    show cls i (if h : i < ncls then Classical.choose (C.ne i h) else 0)
    rw [dif_pos hi]
    exact Classical.choose_spec (C.ne i hi)
  have := nodup_lt_length 256 ((List.range ncls).map rep) ?_ ?_
  · simpa using this
  · rw [List.nodup_iff_pairwise_ne, List.pairwise_map]
    refine List.Pairwise.imp_of_mem ?_ (List.pairwise_lt_range (n := ncls))
    intro a b ha hb' hab h
    rw [List.mem_range] at ha hb'
    have h1 := hrep a ha
    rw [h] at h1
    have := C.disj a b _ h1 (hrep b hb')
    omega
  · intro x hx
    obtain ⟨i, hi, rfl⟩ := List.mem_map.1 hx
    exact hb _ _ (hrep i (List.mem_range.1 hi))

/-- A word can only be continued if some position is left. -/
theorem Tree.after_prefix {σ : Type} {F : Nat → List Nat} {A : Nat → σ → Prop} (u w : List σ) :
    ∀ S q, Tree.after F A S (u ++ w) q → ∃ p, Tree.after F A S u p := by
  induction u with
  | nil =>
    intro S q h
    cases w with
    | nil => exact ⟨q, h⟩
    | cons s w => obtain ⟨p, hp, _⟩ := h; exact ⟨p, hp⟩
  | cons a u ih =>
    rintro S q ⟨p, hp, ha, h⟩
    obtain ⟨p', h'⟩ := ih _ _ h
    exact ⟨p', p, hp, ha, h'⟩

/-- End node of a rule with a non-greedy operator. -/
def LazyInfo (d : NodeData) : Prop := ∃ a b c e f g, d = .fin a b c e f g .no

/-- The earliest rule matching `u` has a non-greedy operator. -/
def StopAt (n : Nat) (info : Nat → NodeData) (M : Nat → List Sym → Prop) (u : List Sym) : Prop :=
  ∃ j, j < n ∧ M j u ∧ (∀ i, i < j → ¬ M i u) ∧ LazyInfo (info j)

/-- Meaning of a table `d` for `n` rules: row `r` is in the relation `At r u` to
the words `u` leading to it.  `M j u`: rule `j` matches `u`; `info j`: its end
node.  A transition that could be made may be missing after the words in `Stop`. -/
structure GAutoP (d : Dfa) (size n : Nat) (info : Nat → NodeData) (M : Nat → List Sym → Prop)
    (At : Nat → List Sym → Prop) (Stop : List Sym → Prop) : Prop where
  pos : ∀ r u, At r u → r ≠ 0
  step : ∀ r u c, At r u → c < 256 →
    (∃ r', LuState.step d r c = .ok r' ∧ r' ≠ 0 ∧ At r' (u ++ [.ch c])) ∨
    (LuState.step d r c = .ok 0 ∧ ((∀ j w, j < n → ¬ M j (u ++ .ch c :: w)) ∨ Stop u))
  fin : ∀ r u, At r u → ∃ e, (∀ c, c < 5 → getCell d.rows r c = .ok (cellOf [newRow size e] 0 c)) ∧
    ((e = none ∧ ∀ j, j < n → ¬ M j u) ∨
      ∃ j, j < n ∧ M j u ∧ (∀ i, i < j → ¬ M i u) ∧ e = some (info j))
  eol : ∀ r u, At r u → ∃ e, getCell d.rows r ixEol = .ok e ∧ (e ≠ 0 → At e (u ++ [.eol])) ∧
    (e = 0 → (∀ j w, j < n → ¬ M j (u ++ .eol :: w)) ∨ Stop u)
  ini : At 1 []
  bol : ∃ b, getCell d.rows 0 0 = .ok b ∧ (b ≠ 0 → At b [.bol]) ∧
    (b = 0 → (∀ j w, j < n → ¬ M j (.bol :: w)) ∨ Stop [])
  live : ∀ r u, At r u → ∃ j w, j < n ∧ M j (u ++ w)

/-- As `GAutoP`: a transition that could be made may be missing after a match of a rule
with a non-greedy operator. -/
abbrev GAuto (d : Dfa) (size n : Nat) (info : Nat → NodeData) (M At : Nat → List Sym → Prop) : Prop :=
  GAutoP d size n info M At (StopAt n info M)

/-- As `GAuto`, for rules without `$` and without non-greedy operators. -/
structure Auto (d : Dfa) (size n : Nat) (info : Nat → NodeData) (M : Nat → List Sym → Prop)
    (At : Nat → List Sym → Prop) : Prop where
  pos : ∀ r u, At r u → r ≠ 0
  step : ∀ r u c, At r u → c < 256 →
    (∃ r', LuState.step d r c = .ok r' ∧ r' ≠ 0 ∧ At r' (u ++ [.ch c])) ∨
    (LuState.step d r c = .ok 0 ∧ ∀ j w, j < n → ¬ M j (u ++ .ch c :: w))
  fin : ∀ r u, At r u → ∃ e, (∀ c, c < 5 → getCell d.rows r c = .ok (cellOf [newRow size e] 0 c)) ∧
    ((e = none ∧ ∀ j, j < n → ¬ M j u) ∨
      ∃ j, j < n ∧ M j u ∧ (∀ i, i < j → ¬ M i u) ∧ e = some (info j))
  eol : ∀ r u, At r u → getCell d.rows r ixEol = .ok 0
  ini : At 1 []
  bol : ∃ b, getCell d.rows 0 0 = .ok b ∧ (b ≠ 0 → At b [.bol] ∧ ∃ j w, j < n ∧ M j (.bol :: w)) ∧
    (b = 0 → ∀ j w, j < n → ¬ M j (.bol :: w))

theorem GAuto.auto {d : Dfa} {size n : Nat} {info : Nat → NodeData} {M At : Nat → List Sym → Prop}
    (G : GAuto d size n info M At) (hg : ∀ j, j < n → ¬ LazyInfo (info j))
    (he : ∀ r u, At r u → getCell d.rows r ixEol = .ok 0) : Auto d size n info M At := by
  have hs : ∀ u, ¬ StopAt n info M u := by
    rintro u ⟨j, hj, _, _, h⟩; exact hg j hj h
  refine ⟨G.pos, ?_, G.fin, he, G.ini, ?_⟩
  · intro r u c h hc
    rcases G.step r u c h hc with h1 | ⟨h1, h2 | h2⟩
    · exact .inl h1
    · exact .inr ⟨h1, h2⟩
    · exact absurd h2 (hs u)
  · obtain ⟨b, h1, h2, h3⟩ := G.bol
    refine ⟨b, h1, fun h => ⟨h2 h, ?_⟩, fun h => ?_⟩
    · exact G.live _ _ (h2 h)
    · rcases h3 h with h3 | h3
      · exact h3
      · exact absurd h3 (hs _)

/-- The table built for the trees of the rules. -/
theorem Bundle.table (B : Bundle E.tr m E.heap ts d K) (C : ClsOk m E.mapping ncls cls)
    (hsize : ncls + 7 ≤ E.size) (hnpos : E.size ≤ E.tr.npos)
    (hE : EolOk E m ts ncls) (hne : starts ts ≠ []) (used0 : List Nat)
    (lk : List Nat)
    (hlk : ∀ c, c < 256 → (∃ i, lk[c]? = some (7 + i) ∧ cls i c) ∨
      (lk[c]? = some 6 ∧ ∀ e ∈ m, ¬ Mem c e.1)) :
    ∃ D0 D, closure E ⟨[List.replicate E.size 0], [], [], used0, []⟩ (starts ts) = .ok (some 1, D0) ∧
      buildStates E (2 ^ E.heap.length + 1) 0 D0 = .ok D ∧
      DInv E ncls (MQ E.tr m E.heap ts) used0 D ∧
      ((∀ n j, Rk ts n j → E.heap.tokOf n ≠ some E.tr.eolToken) → D.eolSet = []) ∧
      D.eolSet.foldlM (fixClash E.cr E.nl) D.rows = .ok D.rows ∧
      (∀ u, u ∈ D.used ↔ u ∈ used0 ∨ (E.allowSuppressed = false ∧ ∃ j w, j < ts.length ∧ K j w ∧
        (∀ i, i < j → ¬ K i w) ∧ ∃ a b c e f g, d j = .fin a b u c e f g)) ∧
      GAuto ⟨lk, D.rows⟩ E.size ts.length d K (fun r u => r ≠ 0 ∧ ∃ v, D.seen[r - 1]? = some v ∧
        ∀ q, q ∈ v ↔ Tree.after E.heap.fol (Reads (tokReads E.tr m) E.heap) (starts ts) u q) := by
  have H := B.envOk C hsize hnpos hE
  have hn : ncls + 7 ≤ E.tr.npos := by omega
  have hmem0 : ∀ q, q ∈ dedup [] (starts ts) ↔ q ∈ starts ts := fun q => by rw [mem_dedup]; simp
  have hq0 : MQ E.tr m E.heap ts (dedup [] (starts ts)) := by
    refine ⟨?_, ?_, ⟨[], hmem0⟩, .inr hmem0⟩
    · intro n hn; exact Bundle.rk_starts ((hmem0 n).1 hn)
    · obtain ⟨y, h1, h2⟩ := dedup_sublist (starts ts) []
      rw [h1, List.nil_append]
      exact B.starts_le.sublist h2
  obtain ⟨D0, D, a1, a2, a3, a4, a5⟩ := buildStates_init H used0 (starts ts) hne hq0
    (fun n hn => by obtain ⟨j, hj⟩ := Bundle.rk_starts hn; exact (B.nodeOk C hj).1)
  have hseen : ∀ k v, D.seen[k]? = some v → MQ E.tr m E.heap ts v := fun k v hv =>
    (a3.q v (List.mem_of_getElem? hv)).1
  have hskip : ∀ v x, MQ E.tr m E.heap ts v → Skips E v x → ∀ u,
      (∀ q, q ∈ v ↔ Tree.after E.heap.fol (Reads (tokReads E.tr m) E.heap) (starts ts) u q) →
      StopAt ts.length d K u := by
    rintro v x hv ⟨⟨a, b, c, e, f, g, h1⟩, _⟩ u hu
    have hw : ∀ (j : Nat) (t : Tree × Nat), ts[j]? = some t → (t.2 ∈ v ↔ K j u) := fun j t ht => by
      rw [hu, B.words ht]
    rcases B.firstEnd_eq v hv.rk hv.ord with ⟨b1, _⟩ | ⟨j, t, b1, b2, b3, b4⟩
    · rw [b1] at h1; cases h1
    · rw [b3] at h1
      injection h1 with h1
      injection h1 with h1
      have hj := (List.getElem?_eq_some_iff.1 b1).1
      refine ⟨j, hj, (hw j t b1).1 b2, fun i hi hk => ?_, a, b, c, e, f, g, h1⟩
      have hg := List.getElem?_eq_getElem (show i < ts.length by omega)
      exact b4 i _ hi hg ((hw i _ hg).2 hk)
  have hcell : ∀ {v x val} {s : Sym}, MQ E.tr m E.heap ts v → SymIs E.tr cls s x →
      CellIs E id D.seen v x val → ∀ u,
      (∀ q, q ∈ v ↔ Tree.after E.heap.fol (Reads (tokReads E.tr m) E.heap) (starts ts) u q) →
      (val = 0 ∧ ∀ q, ¬ Tree.after E.heap.fol (Reads (tokReads E.tr m) E.heap) (starts ts) (u ++ [s]) q) ∨
      (∃ k v', D.seen[k]? = some v' ∧ (∀ q, q ∈ v' ↔
        Tree.after E.heap.fol (Reads (tokReads E.tr m) E.heap) (starts ts) (u ++ [s]) q) ∧
        ((val = 0 ∧ StopAt ts.length d K u) ∨ val = k + 1)) := by
    intro v x val s hv hs hc u hu
    have ht : ∀ q, q ∈ tgt E id v x ↔
        Tree.after E.heap.fol (Reads (tokReads E.tr m) E.heap) (starts ts) (u ++ [s]) q := by
      intro q
      rw [B.mem_tgt C hn hv.rk hs, Tree.after_snoc]
      constructor
      · rintro ⟨p, hp, h⟩; exact ⟨p, (hu p).1 hp, h⟩
      · rintro ⟨p, hp, h⟩; exact ⟨p, (hu p).2 hp, h⟩
    rcases hc with ⟨h1, h2⟩ | ⟨h1, j, v', h3, h4, h5⟩
    · left; refine ⟨h2, fun q hq => ?_⟩
      have := (ht q).2 hq
      rw [h1] at this; cases this
    · right
      refine ⟨j, v', h3, fun q => by rw [h4, ht], ?_⟩
      rcases h5 with ⟨h5, h6⟩ | ⟨_, h6⟩
      · exact .inl ⟨h6, hskip v x hv h5 u hu⟩
      · exact .inr h6
  have hdead : ∀ u, (∀ q, ¬ Tree.after E.heap.fol (Reads (tokReads E.tr m) E.heap) (starts ts) u q) →
      ∀ j w, j < ts.length → ¬ K j (u ++ w) := by
    intro u hu j w hj hk
    rw [← B.words (List.getElem?_eq_getElem hj)] at hk
    obtain ⟨p, hp⟩ := Tree.after_prefix u w _ _ hk
    exact hu p hp
  have heolc : ∀ k v, D.seen[k]? = some v → CellIs E id D.seen v E.tr.eolToken (cellOf D.rows (k + 1) ixEol) := by
    intro k v hv
    have hc := a4.cells k v E.tr.eolToken (List.getElem?_eq_some_iff.1 hv).1 hv (.inr (.inr rfl))
      (by show E.tr.npos - 2 ≠ E.tr.npos - 1; omega)
    have hsv : slotVal E.tr D.rows k E.tr.eolToken = cellOf D.rows (k + 1) ixEol := by
      unfold slotVal slot
      rw [if_neg (by show E.tr.npos - 2 ≠ E.tr.npos - 1; omega), if_pos rfl]
    rw [← hsv]
    exact hc
  have heolSet : ∀ r, r ∈ D.eolSet → ∃ v, r ≠ 0 ∧ D.seen[r - 1]? = some v ∧
      ∃ a ∈ v, E.heap.tokOf a = some E.tr.eolToken := by
    intro r hr
    have h1 := (a3.eol r).1 hr
    by_cases h0 : r = 0
    · subst h0
      exact absurd (a3.zero 0 ixEol (.inr (.inl ⟨rfl, by decide⟩))) h1
    · by_cases h2 : r - 1 < D.seen.length
      · have hv := List.getElem?_eq_getElem h2
        refine ⟨_, h0, hv, ?_⟩
        have := heolc (r - 1) _ hv
        rw [show r - 1 + 1 = r from by omega] at this
        rcases this with ⟨_, h⟩ | ⟨h3, _⟩
        · exact absurd h h1
        · obtain ⟨q, hq⟩ := List.exists_mem_of_ne_nil _ h3
          obtain ⟨p, hp, ⟨tk, k1, k2⟩, _⟩ := (B.mem_tgt C hn (hseen _ _ hv).rk
            (s := .eol) (i := E.tr.eolToken) rfl q).1 hq
          exact ⟨p, hp, by rw [k1]; exact congrArg some k2⟩
      · exact absurd (cellOf_out (by rw [a3.len]; omega) _) h1
  have hes : (∀ n j, Rk ts n j → E.heap.tokOf n ≠ some E.tr.eolToken) → D.eolSet = [] := by
    intro hno
    apply List.eq_nil_iff_forall_not_mem.2
    intro r hr
    obtain ⟨v, _, hv, a, ha, he⟩ := heolSet r hr
    obtain ⟨j, hj⟩ := (hseen _ v hv).rk a ha
    exact hno a j hj he
  have hfix : D.eolSet.foldlM (fixClash E.cr E.nl) D.rows = .ok D.rows := by
    have key : ∀ r ∈ D.eolSet, fixClash E.cr E.nl D.rows r = .ok D.rows := by
      intro r hr
      obtain ⟨v, hr0, hv, a, ha, he⟩ := heolSet r hr
      have hq := hseen _ v hv
      obtain ⟨u, hu⟩ := hq.reach
      obtain ⟨j, hj⟩ := hq.rk a ha
      obtain ⟨l1, l2⟩ := hE.idx ⟨a, j, hj, he⟩
      have hlt := (List.getElem?_eq_some_iff.1 hv).1
      have hcol : ∀ i, i < ncls → (∀ n c s, n ∈ v → c ∈ m → E.heap.tokOf n = some c.2 →
          E.mapping[c.2]? = some s → i ∉ s) → cellOf D.rows r (i + ixTransitions) = 0 := by
        intro i hi hno
        have hc := a4.cells (r - 1) v i hlt hv (.inl hi) (by show i ≠ E.tr.npos - 1; omega)
        have hsv : slotVal E.tr D.rows (r - 1) i = cellOf D.rows r (i + ixTransitions) := by
          unfold slotVal slot
          rw [if_neg (by show i ≠ E.tr.npos - 1; omega), if_neg (by show i ≠ E.tr.npos - 2; omega)]
          rw [show r - 1 + 1 = r from by omega]
        rw [hsv] at hc
        rcases hc with ⟨_, h⟩ | ⟨h, _⟩
        · exact h
        · exfalso
          apply h
          apply List.eq_nil_iff_forall_not_mem.2
          intro q hq'
          obtain ⟨x, hx⟩ := C.ne i hi
          obtain ⟨p, hp, ⟨tk, k1, c, hc, k2, k3⟩, _⟩ := (B.mem_tgt C hn hq.rk (s := .ch x) hx q).1 hq'
          obtain ⟨s, s1, _, s3, s4⟩ := C.map c hc
          obtain ⟨i', hi', hx'⟩ := (s4 x).1 k3
          rw [C.disj i' i x hx' hx] at hi'
          exact hno p c s hp hc (by rw [k1, k2]) s1 hi'
      have hcl := fun n c s hn hc => hE.clash u a n c s ((hu a).1 ha) he ((hu n).1 hn) hc
      have z1 := hcol E.cr l1 fun n c s hn hc ht hs => (hcl n c s hn hc ht hs).1
      have z2 := hcol E.nl l2 fun n c s hn hc ht hs => (hcl n c s hn hc ht hs).2
      have hg : ∀ c, c < E.size → getCell D.rows r c = .ok (cellOf D.rows r c) := fun c hc =>
        getCell_spec a3.width (by rw [a3.len]; omega) hc
      simp only [ixTransitions] at z1 z2
      unfold fixClash
      simp only [ixEol, ixTransitions]
      rw [hg 5 (by omega), hg (E.cr + 7) (by omega), hg (E.nl + 7) (by omega), z1, z2]
      simp only [bind, Except.bind, ne_eq, not_true_eq_false, if_false]
    have : ∀ l : List Nat, (∀ r ∈ l, r ∈ D.eolSet) → l.foldlM (fixClash E.cr E.nl) D.rows = .ok D.rows := by
      intro l
      induction l with
      | nil => intro _; rfl
      | cons r l ih =>
        intro hl
        rw [List.foldlM_cons, key r (hl r (by simp))]
        exact ih fun r hr => hl r (by simp [hr])
    exact this _ fun _ h => h
  have hbol : CellIs E id D.seen (dedup [] (starts ts)) E.tr.bolToken (cellOf D.rows 0 0) := by
    rcases a4.bol with ⟨b1, b2⟩ | ⟨b1, k, v, b2, b3, b4, _⟩
    · rw [b1]; exact b2 0 _ (List.getElem?_eq_some_iff.1 a5).1 a5
    · rcases b4 with ⟨_, h⟩ | h
      · exact absurd h b1
      · have hv := hseen k v b3
        have hset : ∀ q, q ∈ v ↔ q ∈ starts ts := by
          rcases hv.bol with hb | hb
          · exfalso
            obtain ⟨q, hq⟩ := List.exists_mem_of_ne_nil _ h.1
            obtain ⟨p, hp, ⟨tk, h1, h2⟩, _⟩ := (B.mem_tgt C hn hv.rk (s := .bol)
              (i := E.tr.bolToken) rfl q).1 hq
            exact hb p hp (by rw [h1]; exact congrArg some h2)
          · exact hb
        have hk : k = 0 := by
          have hk' := List.getElem?_eq_some_iff.1 b3
          have h0' := List.getElem?_eq_some_iff.1 a5
          have := List.pairwise_iff_getElem.1 a3.dist 0 k h0'.1 hk'.1
          rcases Nat.eq_zero_or_pos k with h3 | h3
          · exact h3
          · have h4 := this h3
            rw [h0'.2, hk'.2] at h4
            have : sameSet (dedup [] (starts ts)) v = true :=
              (sameSet_iff _ _).2 fun q => by rw [hmem0, hset]
            rw [this] at h4; cases h4
        subst hk
        rw [a5] at b3
        cases b3
        exact .inr h
  have hset0 : ∀ (k : Nat) (v : List Nat), D.seen[k]? = some v → (∃ n ∈ v, E.heap.tokOf n = some E.tr.bolToken) →
      v = dedup [] (starts ts) := by
    rintro k v hv ⟨n, hn, hb⟩
    have hset : ∀ q, q ∈ v ↔ q ∈ starts ts := by
      rcases (hseen k v hv).bol with hb' | hb'
      · exact absurd hb (hb' n hn)
      · exact hb'
    have hk' := List.getElem?_eq_some_iff.1 hv
    have h0' := List.getElem?_eq_some_iff.1 a5
    rcases Nat.eq_zero_or_pos k with h3 | h3
    · subst h3; rw [a5] at hv; cases hv; rfl
    · have h4 := List.pairwise_iff_getElem.1 a3.dist 0 k h0'.1 hk'.1 h3
      rw [h0'.2, hk'.2] at h4
      have : sameSet (dedup [] (starts ts)) v = true :=
        (sameSet_iff _ _).2 fun q => by rw [hmem0, hset]
      rw [this] at h4; cases h4
  have hcover : ∀ u : List Sym, (∃ q, Tree.after E.heap.fol (Reads (tokReads E.tr m) E.heap) (starts ts) u q) →
      ∃ (k : Nat) (v : List Nat), D.seen[k]? = some v ∧
        ∀ q, q ∈ v ↔ Tree.after E.heap.fol (Reads (tokReads E.tr m) E.heap) (starts ts) u q := by
    intro u
    generalize hlen : u.length = len
    induction len generalizing u with
    | zero =>
      intro _
      rw [List.length_eq_zero_iff] at hlen
      subst hlen
      exact ⟨0, _, a5, hmem0⟩
    | succ len ih =>
      intro hq
      obtain ⟨u, s, rfl⟩ : ∃ u' s, u = u' ++ [s] := by
        rcases List.eq_nil_or_concat u with rfl | ⟨u', s, h⟩
        · cases hlen
        · exact ⟨u', s, by rw [h, List.concat_eq_append]⟩
      simp only [List.length_append, List.length_cons, List.length_nil] at hlen
      obtain ⟨q, hq⟩ := hq
      obtain ⟨p, hp, hr, hf⟩ := (Tree.after_snoc u s _ _).1 hq
      obtain ⟨k, v, hv, hu⟩ := ih u (by omega) ⟨p, hp⟩
      have hpv := (hu p).2 hp
      obtain ⟨j, hj⟩ := (hseen k v hv).rk p hpv
      have fin : ∀ x val, SymIs E.tr cls s x → CellIs E id D.seen v x val → ∃ (k : Nat) (v : List Nat), D.seen[k]? = some v ∧
          ∀ q, q ∈ v ↔ Tree.after E.heap.fol (Reads (tokReads E.tr m) E.heap) (starts ts) (u ++ [s]) q := by
        intro x val hs hc
        rcases hcell (hseen k v hv) hs hc u hu with ⟨_, h⟩ | ⟨k', v', h4, h5, _⟩
        · exact absurd hq (h q)
        · exact ⟨k', v', h4, h5⟩
      obtain ⟨tk, h1, h2⟩ := hr
      cases s with
      | ch c =>
        obtain ⟨e, he, _, hm⟩ := h2
        obtain ⟨t, _, _, t2, t3⟩ := C.map e he
        obtain ⟨i, hi, hc⟩ := (t3 c).1 hm
        exact fin i _ hc (a4.cells k v i (List.getElem?_eq_some_iff.1 hv).1 hv (.inl (C.lt i c hc))
          (by have := C.lt i c hc; show i ≠ E.tr.npos - 1; omega))
      | bol =>
        have h2 : tk = E.tr.bolToken := h2
        have := hset0 k v hv ⟨p, hpv, by rw [h1, h2]⟩
        exact fin E.tr.bolToken _ rfl (this ▸ hbol)
      | eol =>
        exact fin E.tr.eolToken _ rfl (a4.cells k v _ (List.getElem?_eq_some_iff.1 hv).1 hv
          (.inr (.inr rfl)) (by show E.tr.npos - 2 ≠ E.tr.npos - 1; omega))
  have hused : ∀ u, u ∈ D.used ↔ u ∈ used0 ∨ (E.allowSuppressed = false ∧ ∃ j w, j < ts.length ∧ K j w ∧
      (∀ i, i < j → ¬ K i w) ∧ ∃ a b c e f g, d j = .fin a b u c e f g) := by
    intro u
    rw [a3.used u]
    refine or_congr Iff.rfl (and_congr Iff.rfl ?_)
    have hw : ∀ (v : List Nat) (w : List Sym) (_ : ∀ q, q ∈ v ↔
        Tree.after E.heap.fol (Reads (tokReads E.tr m) E.heap) (starts ts) w q)
        (j : Nat) (t : Tree × Nat), ts[j]? = some t → (t.2 ∈ v ↔ K j w) := fun v w hu j t ht => by
      rw [hu, B.words ht]
    constructor
    · rintro ⟨v, hv, a, b, c, e, f, g, h1⟩
      obtain ⟨k, hk⟩ := List.getElem?_of_mem hv
      have hq := hseen k v hk
      obtain ⟨w, hw'⟩ := hq.reach
      rcases B.firstEnd_eq v hq.rk hq.ord with ⟨b1, _⟩ | ⟨j, t, b1, b2, b3, b4⟩
      · rw [b1] at h1; cases h1
      · rw [b3] at h1
        injection h1 with h1
        injection h1 with h1
        have hjl := (List.getElem?_eq_some_iff.1 b1).1
        refine ⟨j, w, hjl, (hw v w hw' j t b1).1 b2, fun i hi hk => ?_, a, b, c, e, f, g, h1⟩
        have hg := List.getElem?_eq_getElem (show i < ts.length by omega)
        exact b4 i _ hi hg ((hw v w hw' i _ hg).2 hk)
    · rintro ⟨j, w, hj, hk, hmin, a, b, c, e, f, g, hd⟩
      have hg := List.getElem?_eq_getElem hj
      obtain ⟨k, v, hv, hu⟩ := hcover w ⟨_, (B.words hg w).2 hk⟩
      have hq := hseen k v hv
      refine ⟨v, List.mem_of_getElem? hv, a, b, c, e, f, g, ?_⟩
      rcases B.firstEnd_eq v hq.rk hq.ord with ⟨_, b2⟩ | ⟨j', t, b1, b2, b3, b4⟩
      · exact absurd ((hw v w hu j _ hg).2 hk) (b2 j _ hg)
      · have : j' = j := by
          rcases Nat.lt_trichotomy j' j with h | h | h
          · exact absurd ((hw v w hu j' t b1).1 b2) (hmin j' h)
          · exact h
          · exact absurd ((hw v w hu j _ hg).2 hk) (b4 j _ h hg)
        rw [b3, this, hd]
  refine ⟨D0, D, a1, a2, a3, hes, hfix, hused, ?_⟩
  have hget : ∀ r c v, r ≠ 0 → D.seen[r - 1]? = some v → c < E.size →
      getCell D.rows r c = .ok (cellOf D.rows r c) := by
    intro r c v hr hv hc
    have := (List.getElem?_eq_some_iff.1 hv).1
    exact getCell_spec a3.width (by rw [a3.len]; omega) hc
  refine ⟨fun r u h => h.1, ?_, ?_, ?_, ?_, ?_, ?_⟩
  · rintro r u c ⟨hr, v, hv, hu⟩ hc
    rcases hlk c hc with ⟨i, h1, h2⟩ | ⟨h1, h2⟩
    · have hi := C.lt i c h2
      have hcell' := a4.cells (r - 1) v i (List.getElem?_eq_some_iff.1 hv).1 hv (.inl hi)
        (by show i ≠ E.tr.npos - 1; omega)
      have hsv : slotVal E.tr D.rows (r - 1) i = cellOf D.rows r (7 + i) := by
        unfold slotVal slot
        rw [if_neg (by show i ≠ E.tr.npos - 1; omega), if_neg (by show i ≠ E.tr.npos - 2; omega)]
        simp only [ixTransitions]
        rw [show r - 1 + 1 = r from by omega, Nat.add_comm]
      rw [hsv] at hcell'
      have hstep : LuState.step ⟨lk, D.rows⟩ r c = .ok (cellOf D.rows r (7 + i)) := by
        unfold LuState.step
        simp only [h1]
        exact hget r _ v hr hv (by omega)
      rcases hcell (hseen _ v hv) (s := .ch c) h2 hcell' u hu with ⟨h3, h4⟩ | ⟨k, v', h4, h5, ⟨h6, h7⟩ | h6⟩
      · right
        refine ⟨by rw [hstep, h3], .inl fun j w hj => ?_⟩
        have := hdead _ h4 j w hj
        rwa [List.append_assoc] at this
      · right; exact ⟨by rw [hstep, h6], .inr h7⟩
      · left; exact ⟨_, hstep, by omega, by omega, v', by rw [h6]; exact h4, h5⟩
    · right
      refine ⟨?_, .inl ?_⟩
      · unfold LuState.step
        simp only [h1]
        rw [hget r 6 v hr hv (by omega), a3.zero r 6 (.inl rfl)]
      · intro j w hj
        have := hdead (u ++ [.ch c]) ?_ j w hj
        · rwa [List.append_assoc] at this
        · intro q hq
          rw [Tree.after_snoc] at hq
          obtain ⟨p, _, ⟨tk, _, e, he, _, h4⟩, _⟩ := hq
          exact h2 e he h4
  · rintro r u ⟨hr, v, hv, hu⟩
    obtain ⟨e, e1, e2⟩ := a3.ends (r - 1) v hv
    refine ⟨e, ?_, ?_⟩
    · intro c hc
      rw [hget r c v hr hv (by omega)]
      have := e2 c hc
      rw [show r - 1 + 1 = r from by omega] at this
      rw [this]
    · have hw : ∀ (j : Nat) (t : Tree × Nat), ts[j]? = some t → (t.2 ∈ v ↔ K j u) := fun j t ht => by
        rw [hu, B.words ht]
      rcases B.firstEnd_eq v (hseen _ v hv).rk (hseen _ v hv).ord with ⟨b1, b2⟩ | ⟨j, t, b1, b2, b3, b4⟩
      · left
        rw [b1] at e1
        injection e1 with e1
        refine ⟨e1.symm, fun j hj hk => ?_⟩
        have hg := List.getElem?_eq_getElem hj
        exact b2 j _ hg ((hw j _ hg).2 hk)
      · right
        rw [b3] at e1
        injection e1 with e1
        refine ⟨j, (List.getElem?_eq_some_iff.1 b1).1, (hw j t b1).1 b2, fun i hi hk => ?_, e1.symm⟩
        have hil : i < ts.length := by have := (List.getElem?_eq_some_iff.1 b1).1; omega
        have hg := List.getElem?_eq_getElem hil
        exact b4 i _ hi hg ((hw i _ hg).2 hk)
  · rintro r u ⟨hr, v, hv, hu⟩
    refine ⟨_, hget r ixEol v hr hv (by unfold ixEol; omega), ?_⟩
    have := heolc (r - 1) v hv
    rw [show r - 1 + 1 = r from by omega] at this
    rcases hcell (hseen _ v hv) (s := .eol) rfl this u hu with ⟨h3, h4⟩ | ⟨k, v', h4, h5, ⟨h6, h7⟩ | h6⟩
    · refine ⟨fun h => absurd h3 h, fun _ => .inl fun j w hj => ?_⟩
      have := hdead _ h4 j w hj
      rwa [List.append_assoc] at this
    · exact ⟨fun h => absurd h6 h, fun _ => .inr h7⟩
    · exact ⟨fun _ => ⟨by omega, v', by rw [h6]; exact h4, h5⟩, fun h => by omega⟩
  · exact ⟨by omega, _, a5, hmem0⟩
  · have hg : getCell D.rows 0 0 = .ok (cellOf D.rows 0 0) :=
      getCell_spec a3.width (by rw [a3.len]; omega) (by omega)
    refine ⟨_, hg, ?_⟩
    rcases hcell hq0 (s := .bol) rfl hbol [] hmem0 with ⟨h3, h4⟩ | ⟨k, v', h4, h5, ⟨h6, h7⟩ | h6⟩
    · refine ⟨fun h => absurd h3 h, fun _ => .inl fun j w hj => hdead _ h4 j w hj⟩
    · exact ⟨fun h => absurd h6 h, fun _ => .inr h7⟩
    · exact ⟨fun _ => ⟨by omega, v', by rw [h6]; exact h4, h5⟩, fun h => by omega⟩
  · rintro r u ⟨hr, v, hv, hu⟩
    obtain ⟨q, hq⟩ := List.exists_mem_of_ne_nil _ (a3.q v (List.mem_of_getElem? hv)).2.1
    obtain ⟨j, t, ht, hqt⟩ := (hseen _ v hv).rk q hq
    obtain ⟨b, e₀, H'⟩ := B.tree j t ht
    obtain ⟨w, hw⟩ := H'.complete hqt
    refine ⟨j, w, (List.getElem?_eq_some_iff.1 ht).1, ?_⟩
    rw [← B.words ht]
    exact Tree.after_trans w hw u _ ((hu q).1 hq)

end

end Lexertl
