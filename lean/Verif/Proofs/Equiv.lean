import Verif.Model.Generator
import Verif.Proofs.Alphabet
import Verif.Proofs.Copy

/-
`build_equiv_list`: the transitions leaving a set of positions.
-/
namespace Lexertl

/-- Greediness of a node (`yes` if it is no leaf). -/
def Heap.grd (h : Heap) (n : Nat) : Greedy := (h.greedyOf n).getD .yes

/-- Indexes on which node `n` moves: its alphabet classes, or its own token for
`^` and `$`. -/
def idxOf (tr : Traits) (sm : List (List Nat)) (h : Heap) (n : Nat) : List Nat :=
  match h.tokOf n with
  | none => []
  | some tk =>
    if tk = tr.nullToken then []
    else if tk = tr.bolToken ∨ tk = tr.eolToken then [tk]
    else sm[tk]?.getD []

/-- The node is an end node or a leaf whose token is meaningful. -/
def NodeOk (tr : Traits) (sm : List (List Nat)) (ncls : Nat) (h : Heap) (n : Nat) : Prop :=
  (∃ d, h.finOf n = some d) ∨ ∃ tk, h.tokOf n = some tk ∧
    (tk = tr.nullToken ∨ tk = tr.bolToken ∨ tk = tr.eolToken ∨
      ∃ s, sm[tk]? = some s ∧ s ≠ [] ∧ s.Pairwise (· < ·) ∧ ∀ i ∈ s, i < ncls)

/-- Positions of `v` that move on `x`. -/
def hitsOf (tr : Traits) (sm : List (List Nat)) (h : Heap) (v : List Nat) (x : Nat) : List Nat :=
  v.filter fun n => decide (x ∈ idxOf tr sm h n)

/-- Follow positions of a list of nodes, merged in order. -/
def follAll (h : Heap) : List Nat → List Nat
  | [] => []
  | n :: ns => ns.foldl (fun acc m => Equivset.mergeFollow acc (h.fol m)) (h.fol n)

/-- Greediness of a list of nodes, merged in order. -/
def greedyAll (h : Heap) : List Nat → Greedy
  | [] => .yes
  | n :: ns => ns.foldl (fun g m => Equivset.processGreedy g (h.grd m)) (h.grd n)

theorem mem_follAll (h : Heap) (ns : List Nat) (q : Nat) :
    q ∈ follAll h ns ↔ ∃ p ∈ ns, q ∈ h.fol p := by
  cases ns with
  | nil => simp [follAll]
  | cons n ns =>
    have : ∀ (ns : List Nat) (acc : List Nat),
        q ∈ ns.foldl (fun acc m => Equivset.mergeFollow acc (h.fol m)) acc ↔
          q ∈ acc ∨ ∃ p ∈ ns, q ∈ h.fol p := by
      intro ns
      induction ns with
      | nil => simp
      | cons a ns ih =>
        intro acc
        rw [List.foldl_cons, ih, Equivset.mem_mergeFollow]
        simp only [List.mem_cons, exists_eq_or_imp, or_assoc]
    rw [follAll, this]
    simp only [List.mem_cons, exists_eq_or_imp]

theorem Heap.cell_leaf {h : Heap} {n tk : Nat} (H : h.tokOf n = some tk) :
    h[n]? = some ⟨.leaf tk (h.grd n), h.fol n⟩ := by
  unfold tokOf at H
  split at H
  · rename_i t g f he
    cases H
    unfold grd greedyOf fol
    rw [he]; rfl
  · cases H

theorem Heap.cell_fin {h : Heap} {n : Nat} {d : NodeData} (H : h.finOf n = some d) :
    ∃ a b c e f g i k, h[n]? = some ⟨.fin a b c e f g i, k⟩ ∧ d = .fin a b c e f g i := by
  unfold finOf at H
  split at H
  · rename_i he
    cases H
    exact ⟨_, _, _, _, _, _, _, _, he, rfl⟩
  · cases H

theorem Heap.tok_of_fin {h : Heap} {n : Nat} {d : NodeData} (H : h.finOf n = some d) :
    h.tokOf n = none := by
  obtain ⟨a, b, c, e, f, g, i, k, he, _⟩ := cell_fin H
  unfold tokOf; rw [he]

theorem Heap.fin_of_tok {h : Heap} {n tk : Nat} (H : h.tokOf n = some tk) : h.finOf n = none := by
  unfold finOf; rw [cell_leaf H]

/-- The transitions found by `fill_rhs_list`. -/
theorem fillRhsEquiv_spec (tr : Traits) (sm : List (List Nat)) (ncls : Nat) (h : Heap) (v : List Nat)
    (hv : ∀ n ∈ v, NodeOk tr sm ncls h n) :
    ∃ R, fillRhsEquiv tr h sm v = .ok R ∧ (∀ e ∈ R, e.ok ∧ e.isEmpty = false) ∧
      ∀ x, hits Equivset.dom Equivset.pay x R =
        (hitsOf tr sm h v x).map fun n => ((h.tokOf n).getD 0, h.grd n, h.fol n) := by
  induction v with
  | nil => exact ⟨[], rfl, by simp, fun x => rfl⟩
  | cons n v ih =>
    obtain ⟨R, r1, r2, r3⟩ := ih fun m hm => hv m (List.mem_cons_of_mem _ hm)
    rcases hv n (by simp) with ⟨d, hd⟩ | ⟨tk, htk, hk⟩
    · obtain ⟨a, b, c, e, f, g, i, k, he, _⟩ := Heap.cell_fin hd
      have hi : idxOf tr sm h n = [] := by unfold idxOf; rw [Heap.tok_of_fin hd]
      refine ⟨R, ?_, r2, fun x => ?_⟩
      · rw [fillRhsEquiv, he]; exact r1
      · rw [r3]; simp [hitsOf, hi]
    · have hc := Heap.cell_leaf htk
      by_cases h0 : tk = tr.nullToken
      · have hi : idxOf tr sm h n = [] := by unfold idxOf; rw [htk]; simp [h0]
        refine ⟨R, ?_, r2, fun x => ?_⟩
        · rw [fillRhsEquiv, hc]; simp only [h0, if_true]; exact r1
        · rw [r3]; simp [hitsOf, hi]
      · obtain ⟨idx, i1, i2, i3, i4⟩ : ∃ idx, (if tk = tr.bolToken ∨ tk = tr.eolToken then
            (.ok [tk] : M (List Nat)) else mappingAt sm tk) = .ok idx ∧ idxOf tr sm h n = idx ∧
            idx ≠ [] ∧ idx.Pairwise (· < ·) := by
          unfold idxOf; rw [htk]
          by_cases hb : tk = tr.bolToken ∨ tk = tr.eolToken
          · exact ⟨[tk], by rw [if_pos hb], by simp [h0, hb], by simp, by simp⟩
          · rcases hk with rfl | rfl | rfl | ⟨s, s1, s2, s3, _⟩
            · exact absurd rfl h0
            · exact absurd (.inl rfl) hb
            · exact absurd (.inr rfl) hb
            · exact ⟨s, by rw [if_neg hb, mappingAt, s1], by simp [h0, hb, s1], s2, s3⟩
        refine ⟨⟨idx, tk, h.grd n, h.fol n⟩ :: R, ?_, ?_, fun x => ?_⟩
        · rw [fillRhsEquiv, hc]
          simp only [h0, if_false, i1, r1, bind, Except.bind, pure, Except.pure]
        · intro e he
          rcases List.mem_cons.1 he with rfl | he
          · exact ⟨⟨i4, fun h => absurd h i3⟩, by simp [Equivset.isEmpty, i3]⟩
          · exact r2 e he
        · rw [hits_cons, r3]
          unfold hitsOf
          by_cases hx : x ∈ idx
          · simp [Equivset.dom, hx, i2, Equivset.pay, htk]
          · simp [Equivset.dom, hx, i2]

theorem foldPay_equiv (h : Heap) (ns : List Nat) (p : Nat × Greedy × List Nat)
    (hp : p ∈ foldPay Equivset.comb (ns.map fun n => ((h.tokOf n).getD 0, h.grd n, h.fol n))) :
    p.2.1 = greedyAll h ns ∧ p.2.2 = follAll h ns := by
  cases ns with
  | nil => cases hp
  | cons n ns =>
    simp only [List.map_cons, foldPay, List.mem_singleton] at hp
    subst hp
    have : ∀ (ns : List Nat) (q : Nat × Greedy × List Nat),
        ((ns.map fun n => ((h.tokOf n).getD 0, h.grd n, h.fol n)).foldl Equivset.comb q).2 =
          (ns.foldl (fun g m => Equivset.processGreedy g (h.grd m)) q.2.1,
            ns.foldl (fun acc m => Equivset.mergeFollow acc (h.fol m)) q.2.2) := by
      intro ns
      induction ns with
      | nil => intro q; rfl
      | cons a ns ih => intro q; rw [List.map_cons, List.foldl_cons, ih]; rfl
    rw [this]
    exact ⟨rfl, rfl⟩

/-- The transitions of a position set: disjoint index vectors, and on each index
the merged follow positions of exactly the positions that move on it. -/
theorem buildEquivList_spec (tr : Traits) (sm : List (List Nat)) (ncls : Nat) (h : Heap)
    (v : List Nat) (hv : ∀ n ∈ v, NodeOk tr sm ncls h n) :
    ∃ es, buildEquivList tr h sm v = .ok es ∧
      (∀ e ∈ es, e.indexVector ≠ [] ∧ e.indexVector.Pairwise (· < ·) ∧ ∀ x ∈ e.indexVector,
        hitsOf tr sm h v x ≠ [] ∧ e.followpos = follAll h (hitsOf tr sm h v x) ∧
        e.greedy = greedyAll h (hitsOf tr sm h v x)) ∧
      es.Pairwise (fun e f => ∀ x ∈ e.indexVector, x ∉ f.indexVector) ∧
      ∀ x, hitsOf tr sm h v x ≠ [] → ∃ e ∈ es, x ∈ e.indexVector := by
  obtain ⟨R, r1, r2, r3⟩ := fillRhsEquiv_spec tr sm ncls h v hv
  obtain ⟨es, s1, s2, s3⟩ := splitAll_spec Equivset.laws R r2
  have hfil : ∀ x, ((es.filter fun a => Equivset.dom a x).map Equivset.pay) =
      foldPay Equivset.comb ((hitsOf tr sm h v x).map fun n => ((h.tokOf n).getD 0, h.grd n, h.fol n)) :=
    fun x => by have := s3 x; rw [r3] at this; exact this
  have hlen : ∀ x, (es.filter fun a => Equivset.dom a x).length ≤ 1 := fun x => by
    rw [← List.length_map (f := Equivset.pay), hfil]
    unfold foldPay
    split <;> simp
  refine ⟨es, ?_, ?_, ?_, ?_⟩
  · unfold buildEquivList
    simp only [r1, s1, bind, Except.bind]
  · intro e he
    refine ⟨?_, (s2 e he).1.1, ?_⟩
    · intro h0
      have := (s2 e he).2
      simp [Equivset.isEmpty, h0, (s2 e he).1.2 h0] at this
    · intro x hx
      have hm : Equivset.pay e ∈ foldPay Equivset.comb ((hitsOf tr sm h v x).map
          fun n => ((h.tokOf n).getD 0, h.grd n, h.fol n)) := by
        rw [← hfil]
        exact List.mem_map.2 ⟨e, List.mem_filter.2 ⟨he, by simp [Equivset.dom, hx]⟩, rfl⟩
      have h2 := foldPay_equiv h _ _ hm
      refine ⟨?_, h2.2, h2.1⟩
      intro h0
      rw [h0] at hm
      cases hm
  · rw [List.pairwise_iff_getElem]
    intro i j hi hj hij x hx hy
    have := filter_le_one_inj (fun a => Equivset.dom a x) es (hlen x) i j _ _
      (List.getElem?_eq_getElem hi) (List.getElem?_eq_getElem hj) (by simp [Equivset.dom, hx])
      (by simp [Equivset.dom, hy])
    omega
  · intro x hx
    have h1 := hfil x
    cases hh : hitsOf tr sm h v x with
    | nil => exact absurd hh hx
    | cons n ns =>
      rw [hh] at h1
      simp only [List.map_cons, foldPay] at h1
      obtain ⟨e, he, _⟩ : ∃ e ∈ es.filter (fun a => Equivset.dom a x), True := by
        cases hf : es.filter (fun a => Equivset.dom a x) with
        | nil => rw [hf] at h1; cases h1
        | cons e _ => exact ⟨e, by simp, trivial⟩
      have := List.mem_filter.1 he
      exact ⟨e, this.1, by simpa [Equivset.dom] using this.2⟩

end Lexertl
