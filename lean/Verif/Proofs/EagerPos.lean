import Verif.Proofs.EncPos
import Verif.Proofs.EagerTree

/-
Inside a match of an eager rule the table has a transition on the next character.
-/
namespace Lexertl
open Spec
namespace Eager

/-- A position list with a `hard` position is not non-greedy. -/
theorem greedyAll_hard {h : Heap} {ns : List Nat} {q : Nat} (hq : q ∈ ns) (hg : Hd h q) : greedyAll h ns ≠ .no := by
  have hgr : h.grd q = .hard := by unfold Heap.grd; rw [show h.greedyOf q = some .hard from hg]; rfl
  have step : ∀ (ns : List Nat) (g : Greedy), g ≠ .no →
      ns.foldl (fun g m => Equivset.processGreedy g (h.grd m)) g ≠ .no := by
    intro ns
    induction ns with
    | nil => intro g hg; exact hg
    | cons n ns ih =>
      intro g hg
      rw [List.foldl_cons]
      apply ih
      cases g with
      | no => exact absurd rfl hg
      | yes => simp [Equivset.processGreedy]
      | hard => simp [Equivset.processGreedy]
  have main : ∀ (ns : List Nat) (g : Greedy), q ∈ ns →
      ns.foldl (fun g m => Equivset.processGreedy g (h.grd m)) g ≠ .no := by
    intro ns
    induction ns with
    | nil => intro g hq; cases hq
    | cons n ns ih =>
      intro g hq
      rw [List.foldl_cons]
      rcases List.mem_cons.1 hq with rfl | hq
      · apply step
        rw [hgr]
        cases g <;> simp [Equivset.processGreedy]
      · exact ih _ hq
  cases ns with
  | nil => cases hq
  | cons n ns =>
    unfold greedyAll
    rcases List.mem_cons.1 hq with rfl | hq
    · exact step ns _ (by rw [hgr]; simp)
    · exact main ns _ hq

section
variable {E : DfaEnv} {m : CharsetMap} {ts : List (Tree × Nat)} {d : Nat → NodeData} {K : Nat → List Sym → Prop}
  {ncls : Nat} {cls : Nat → Nat → Prop}

theorem live (B : Bundle E.tr m E.heap ts d K) (C : ClsOk m E.mapping ncls cls)
    (hsize : ncls + 7 ≤ E.size) (hnpos : E.size ≤ E.tr.npos)
    (hE : EolOk E m ts ncls) (hne : starts ts ≠ []) (used0 : List Nat) (lk : List Nat)
    (hlk : ∀ c, c < 256 → (∃ i, lk[c]? = some (7 + i) ∧ cls i c) ∨
      (lk[c]? = some 6 ∧ ∀ e ∈ m, ¬ Mem c e.1))
    {D0 D : DState} (a1 : closure E ⟨[List.replicate E.size 0], [], [], used0, []⟩ (starts ts) = .ok (some 1, D0))
    (a2 : buildStates E (2 ^ E.heap.length + 1) 0 D0 = .ok D)
    {j : Nat} {t : Tree × Nat} (ht : ts[j]? = some t) (H : EagerTree E.heap t) (r : Nat) (u : List Sym) (s : Sym)
    (hr : r ≠ 0) (hat : ∃ v, D.seen[r - 1]? = some v ∧
        ∀ q, q ∈ v ↔ Tree.after E.heap.fol (Reads (tokReads E.tr m) E.heap) (starts ts) (u ++ [s]) q)
    (c : Nat) (hc : c < 256) (w : List Sym) (hk : K j (u ++ [s] ++ .ch c :: w)) :
    LuState.step ⟨lk, D.rows⟩ r c ≠ .ok 0 := by
  have hn : ncls + 7 ≤ E.tr.npos := by omega
  have hmem0 : ∀ q, q ∈ dedup [] (starts ts) ↔ q ∈ starts ts := fun q => by rw [mem_dedup]; simp
  have H0 := B.envOk C hsize hnpos hE
  have hq0 : MQ E.tr m E.heap ts (dedup [] (starts ts)) := by
    refine ⟨?_, ?_, ⟨[], hmem0⟩, .inr hmem0⟩
    · intro n hn; exact Bundle.rk_starts ((hmem0 n).1 hn)
    · obtain ⟨y, h1, h2⟩ := dedup_sublist (starts ts) []
      rw [h1, List.nil_append]
      exact B.starts_le.sublist h2
  obtain ⟨D0', D', b1, b2, b3, b4, b5⟩ := buildStates_init H0 used0 (starts ts) hne hq0
    (fun n hn => by obtain ⟨j, hj⟩ := Bundle.rk_starts hn; exact (B.nodeOk C hj).1)
  rw [a1] at b1
  cases b1
  rw [a2] at b2
  cases b2
  obtain ⟨v, hv, hu⟩ := hat
  obtain ⟨hmq, _, _⟩ := b3.q v (List.mem_of_getElem? hv)
  -- the position that reads `c`
  obtain ⟨p, hp, hpc, hpw⟩ : ∃ p, Tree.after E.heap.fol (Reads (tokReads E.tr m) E.heap) (starts ts) (u ++ [s]) p ∧
      Reads (tokReads E.tr m) E.heap p (.ch c) ∧
      Tree.after E.heap.fol (Reads (tokReads E.tr m) E.heap) (E.heap.fol p) w t.2 := by
    have := (B.words ht _).2 hk
    have split : ∀ (u' : List Sym) (S : List Nat), Tree.after E.heap.fol (Reads (tokReads E.tr m) E.heap) S
        (u' ++ .ch c :: w) t.2 → ∃ p, Tree.after E.heap.fol (Reads (tokReads E.tr m) E.heap) S u' p ∧
        Reads (tokReads E.tr m) E.heap p (.ch c) ∧
        Tree.after E.heap.fol (Reads (tokReads E.tr m) E.heap) (E.heap.fol p) w t.2 := by
      intro u'
      induction u' with
      | nil => rintro S ⟨p, h1, h2, h3⟩; exact ⟨p, h1, h2, h3⟩
      | cons a u' ih =>
        rintro S ⟨p, h1, h2, h3⟩
        obtain ⟨q, k1, k2, k3⟩ := ih _ h3
        exact ⟨q, ⟨p, h1, h2, k1⟩, k2, k3⟩
    exact split _ _ this
  obtain ⟨n, hn1, hn2, hn3⟩ := (Tree.after_snoc u s (starts ts) p).1 hp
  have hpv : p ∈ v := (hu p).2 hp
  -- it belongs to rule `j`
  obtain ⟨i, hi⟩ := hmq.rk p hpv
  have hij : i = j := by
    have h2 := Tree.after_mem (A := Reads (tokReads E.tr m) E.heap) (fun q => Rk ts q i)
      (fun p hp q hq => B.rk_fol hp hq) w (E.heap.fol p) (fun q hq => B.rk_fol hi hq) _ hpw
    exact B.rk_inj h2 (B.fin_rk ht).1
  subst hij
  have hrn : ∃ i', Rk ts n i' := Tree.after_mem (A := Reads (tokReads E.tr m) E.heap) (fun q => ∃ i, Rk ts q i)
      (fun p ⟨i, hp⟩ q hq => ⟨i, B.rk_fol hp hq⟩) u _ (fun q hq => Bundle.rk_starts hq) _ hn1
  obtain ⟨i', hi'⟩ := hrn
  have := B.rk_inj (B.rk_fol hi' hn3) hi
  subst this
  obtain ⟨t', ht', hnt⟩ := hi'
  rw [ht] at ht'
  cases ht'
  obtain ⟨_, _, R⟩ := B.tree _ _ ht
  rw [R.lay.fol n (t.1.act_sub n hnt)] at hn3
  have hhd : Hd E.heap p := by
    rcases H n p hn3 with h | rfl
    · exact h
    · obtain ⟨tk, h1, _⟩ := hpc
      rw [Heap.tok_of_fin R.fin] at h1
      cases h1
  have hlt := (List.getElem?_eq_some_iff.1 hv).1
  have hget : ∀ c, c < E.size → getCell D.rows r c = .ok (cellOf D.rows r c) := fun c hc =>
    getCell_spec b3.width (by rw [b3.len]; omega) hc
  rcases hlk c hc with ⟨x, h1, h2⟩ | ⟨_, h2⟩
  · have hx := C.lt x c h2
    have hit : p ∈ hitsOf E.tr E.mapping E.heap v x := by
      unfold hitsOf
      rw [List.mem_filter, decide_eq_true_eq]
      exact ⟨hpv, (B.idx_reads C hn hi (s := .ch c) h2).2 hpc⟩
    have htgt : tgt E id v x ≠ [] := by
      obtain ⟨q, hq⟩ : ∃ q, q ∈ E.heap.fol p := by
        cases w with
        | nil => exact ⟨_, hpw⟩
        | cons a w => obtain ⟨q, hq, _⟩ := hpw; exact ⟨q, hq⟩
      exact List.ne_nil_of_mem ((B.mem_tgt C hn hmq.rk (s := .ch c) h2 q).2 ⟨p, hpv, hpc, hq⟩)
    have hxb : x ≠ E.tr.bolToken := by show x ≠ E.tr.npos - 1; omega
    unfold LuState.step
    simp only [h1]
    rw [hget _ (by omega)]
    have hval : slotVal E.tr D.rows (r - 1) x ≠ 0 := by
      rcases b4.cells (r - 1) v x hlt hv (.inl hx) hxb with ⟨h, _⟩ | ⟨_, k, s, _, _, h5⟩
      · exact absurd h htgt
      · rcases h5 with ⟨⟨_, h5⟩, _⟩ | ⟨_, h5⟩
        · exact absurd h5 (greedyAll_hard hit hhd)
        · rw [h5]; omega
    unfold slotVal slot at hval
    rw [if_neg hxb, if_neg (by show x ≠ E.tr.npos - 2; omega)] at hval
    simp only [ixTransitions] at hval
    rw [show r - 1 + 1 = r from by omega, Nat.add_comm] at hval
    intro h
    injection h with h
    exact hval h
  · obtain ⟨tk, _, e, he, _, hm⟩ := hpc
    exact absurd hm (h2 e he)

end

end Eager
end Lexertl
