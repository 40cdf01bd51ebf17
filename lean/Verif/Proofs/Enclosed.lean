import Verif.Proofs.Machine
import Verif.Proofs.Equiv

/-
Rules of the form "opening text, any characters non-greedily, closing text"
(comments): in the table, a row in which such a rule has just matched, and in which
no other rule is under way, has no transitions.

The argument follows the position lists of the subset construction.  The positions
of the repeated part are listed before those of the closing text, so that the
greediness recorded for a transition is the non-greedy one of the repeated part.
-/
namespace Lexertl
namespace Enc

theorem dedup_append (a b : List Nat) : ∀ acc, dedup acc (a ++ b) = dedup (dedup acc a) b := by
  induction a with
  | nil => intro acc; rfl
  | cons x a ih =>
    intro acc
    rw [List.cons_append, dedup, dedup]
    split
    · exact ih _
    · exact ih _

theorem dedup_filter (P : Nat → Bool) (l : List Nat) : ∀ acc,
    (dedup acc l).filter P = dedup (acc.filter P) (l.filter P) := by
  induction l with
  | nil => intro acc; rfl
  | cons a l ih =>
    intro acc
    by_cases hp : P a = true
    · rw [List.filter_cons_of_pos hp]
      unfold dedup
      by_cases h : a ∈ acc
      · rw [if_pos h, if_pos (List.mem_filter.2 ⟨h, hp⟩), ih]
      · rw [if_neg h, if_neg (fun h' => h (List.mem_filter.1 h').1), ih]
        simp [hp]
    · rw [List.filter_cons_of_neg hp]
      conv => lhs; unfold dedup
      by_cases h : a ∈ acc
      · rw [if_pos h, ih]
      · rw [if_neg h, ih]
        simp [hp]

theorem dedup_nodup (l : List Nat) : ∀ acc, (acc ++ l).Nodup → dedup acc l = acc ++ l := by
  induction l with
  | nil => intro acc _; simp [dedup]
  | cons a l ih =>
    intro acc h
    unfold dedup
    have hn : a ∉ acc := by
      intro ha
      rw [List.nodup_append] at h
      exact h.2.2 a ha a (by simp) rfl
    rw [if_neg hn, ih _ (by simpa using h)]
    simp

theorem dedup_subset (l : List Nat) : ∀ acc, (∀ x ∈ l, x ∈ acc) → dedup acc l = acc := by
  induction l with
  | nil => intro acc _; rfl
  | cons a l ih =>
    intro acc h
    rw [dedup, if_pos (h a (by simp))]
    exact ih acc fun x hx => h x (by simp [hx])

theorem dedup_merge (m : List Nat) : ∀ l, dedup [] (Equivset.mergeFollow l m) = dedup [] (l ++ m) := by
  induction m with
  | nil => intro l; simp [Equivset.mergeFollow]
  | cons q m ih =>
    intro l
    have h1 : Equivset.mergeFollow l (q :: m) = Equivset.mergeFollow (if q ∈ l then l else l ++ [q]) m := rfl
    rw [h1, ih]
    by_cases h : q ∈ l
    · rw [if_pos h, show l ++ q :: m = (l ++ [q]) ++ m from by simp, dedup_append, dedup_append, dedup_append,
        dedup_subset [q] (dedup [] l) (by simpa [mem_dedup] using h)]
    · rw [if_neg h, List.append_assoc]; rfl

theorem dedup_follAll (h : Heap) (ns : List Nat) :
    dedup [] (follAll h ns) = dedup [] (ns.flatMap h.fol) := by
  cases ns with
  | nil => rfl
  | cons n ns =>
    rw [follAll, List.flatMap_cons]
    have : ∀ (ns : List Nat) (acc : List Nat),
        dedup [] (ns.foldl (fun acc m => Equivset.mergeFollow acc (h.fol m)) acc) =
          dedup [] (acc ++ ns.flatMap h.fol) := by
      intro ns
      induction ns with
      | nil => intro acc; simp
      | cons a ns ih =>
        intro acc
        rw [List.foldl_cons, ih, dedup_append, dedup_merge, ← dedup_append, List.flatMap_cons, List.append_assoc]
    exact this ns _

theorem filter_flatMap (P : Nat → Bool) (F : Nat → List Nat) (l : List Nat)
    (h1 : ∀ n ∈ l, P n = true → ∀ m ∈ F n, P m = true)
    (h2 : ∀ n ∈ l, P n = false → ∀ m ∈ F n, P m = false) :
    (l.flatMap F).filter P = (l.filter P).flatMap F := by
  induction l with
  | nil => rfl
  | cons a l ih =>
    have hi := ih (fun n hn => h1 n (by simp [hn])) (fun n hn => h2 n (by simp [hn]))
    rw [List.flatMap_cons, List.filter_append, hi]
    cases hp : P a with
    | true =>
      rw [List.filter_cons_of_pos hp, List.flatMap_cons,
        List.filter_eq_self.2 (h1 a (by simp) hp)]
    | false =>
      rw [List.filter_cons_of_neg (by simp [hp]),
        List.filter_eq_nil_iff.2 (fun m hm => by simp [h2 a (by simp) hp m hm])]
      rfl

/-- Positions of a rule of the form opening `U`, repeated `S`, closing `V`, end `f`. -/
structure Pos (E : DfaEnv) (G : Nat → Prop) (P : Nat → Bool) (U S V : List Nat) (f x0 : Nat) : Prop where
  nodup : (U ++ S ++ V ++ [f]).Nodup
  mem : ∀ n, P n = true ↔ n ∈ U ++ S ++ V ++ [f]
  une : U ≠ []
  sne : S ≠ []
  hx0 : (V ++ [f])[0]? = some x0
  folU : ∀ (i n : Nat), U[i]? = some n → (∃ m ∈ U, E.heap.fol n = [m]) ∨ E.heap.fol n = S ++ [x0]
  folS : ∀ s ∈ S, E.heap.fol s = S ++ [x0]
  folV : ∀ (i n : Nat), V[i]? = some n → ∃ m, (V ++ [f])[i + 1]? = some m ∧ E.heap.fol n = [m]
  folF : E.heap.fol f = []
  out : ∀ n, G n → P n = false → ∀ m ∈ E.heap.fol n, P m = false
  fidx : idxOf E.tr E.mapping E.heap f = []
  dich : ∀ n ∈ V, (∀ x ∈ idxOf E.tr E.mapping E.heap n, ∃ s ∈ S, x ∈ idxOf E.tr E.mapping E.heap s) ∨
    (∀ x ∈ idxOf E.tr E.mapping E.heap n, ∀ s ∈ S, x ∉ idxOf E.tr E.mapping E.heap s)
  grdS : ∀ s ∈ S, E.heap.grd s = .no
  grdV : ∀ n ∈ V, E.heap.grd n ≠ .hard

/-- What the positions of the rule in a position list look like. -/
def Inv (E : DfaEnv) (P : Nat → Bool) (U S V : List Nat) (f : Nat) (v : List Nat) : Prop :=
  (v.filter P).Nodup ∧
  ((∃ n ∈ U, v.filter P = [n]) ∨
   (∃ Y, v.filter P = S ++ Y ∧ ∀ y ∈ Y, ∃ i : Nat, (V ++ [f])[i]? = some y ∧
      ∀ k n : Nat, k < i → V[k]? = some n → ∀ x ∈ idxOf E.tr E.mapping E.heap n,
        ∃ s ∈ S, x ∈ idxOf E.tr E.mapping E.heap s) ∨
   v.filter P = [] ∨
   ∃ y ∈ V ++ [f], v.filter P = [y])

section
variable {E : DfaEnv} {G : Nat → Prop} {P : Nat → Bool} {U S V : List Nat} {f x0 : Nat}

theorem Pos.closed (H : Pos E G P U S V f x0) (n : Nat) (hn : P n = true) (m : Nat)
    (hm : m ∈ E.heap.fol n) : P m = true := by
  have hx0 : x0 ∈ V ++ [f] := List.mem_of_getElem? H.hx0
  rw [H.mem] at hn ⊢
  simp only [List.mem_append, List.mem_singleton] at hn hx0 ⊢
  rcases hn with ((hn | hn) | hn) | hn
  · obtain ⟨i, hi⟩ := List.getElem?_of_mem hn
    rcases H.folU i n hi with ⟨k, hk, he⟩ | he
    · rw [he] at hm; simp at hm; subst hm; exact .inl (.inl (.inl hk))
    · rw [he] at hm
      simp at hm
      grind
  · rw [H.folS n hn] at hm
    simp at hm
    grind
  · obtain ⟨i, hi⟩ := List.getElem?_of_mem hn
    obtain ⟨k, hk, he⟩ := H.folV i n hi
    rw [he] at hm
    simp at hm
    subst hm
    have := List.mem_of_getElem? hk
    simp at this
    grind
  · subst hn; rw [H.folF] at hm; cases hm

theorem Pos.nodupSX (H : Pos E G P U S V f x0) : (S ++ [x0]).Nodup := by
  have h := H.nodup
  have hx0 : x0 ∈ V ++ [f] := List.mem_of_getElem? H.hx0
  simp only [List.append_assoc] at h
  have h2 := (List.nodup_append.1 h).2.1
  rw [List.nodup_append] at h2 ⊢
  refine ⟨h2.1, by simp, fun a ha b hb => ?_⟩
  simp at hb; subst hb
  exact h2.2.2 a ha b hx0

theorem Pos.step (H : Pos E G P U S V f x0) (v : List Nat) (x : Nat) (hg : ∀ n ∈ v, G n)
    (hv : Inv E P U S V f v) : Inv E P U S V f (dedup [] (tgt E id v x)) := by
  let hit : Nat → Bool := fun n => decide (x ∈ idxOf E.tr E.mapping E.heap n)
  have hfin : hit f = false := by simp [hit, H.fidx]
  have key : (dedup [] (tgt E id v x)).filter P =
      dedup [] (((v.filter P).filter hit).flatMap E.heap.fol) := by
    show (dedup [] (follAll E.heap (v.filter hit))).filter P = _
    rw [dedup_follAll, dedup_filter, filter_flatMap P]
    · rw [List.filter_nil, List.filter_filter, List.filter_filter]
      congr 3
      funext a
      rw [Bool.and_comm]
    · intro n _ h1 m h2; exact H.closed n h1 m h2
    · intro n h0 h1 m h2; exact H.out n (hg n (List.mem_filter.1 h0).1) h1 m h2
  have hnd : ((dedup [] (tgt E id v x)).filter P).Nodup := (nodup_dedup _ _ (by simp)).filter _
  refine ⟨hnd, ?_⟩
  rw [key] at hnd ⊢
  have hone : ∀ m, dedup [] [m] = [m] := fun m => by simp [dedup]
  have hsx : dedup [] (S ++ [x0]) = S ++ [x0] := by
    have := dedup_nodup (S ++ [x0]) [] (by simpa using H.nodupSX)
    simpa using this
  have hinit : ∀ y ∈ [x0], ∃ i : Nat, (V ++ [f])[i]? = some y ∧
      ∀ k n : Nat, k < i → V[k]? = some n → ∀ x ∈ idxOf E.tr E.mapping E.heap n,
        ∃ s ∈ S, x ∈ idxOf E.tr E.mapping E.heap s := by
    intro y hy
    simp at hy; subst hy
    exact ⟨0, H.hx0, fun k n hk => by omega⟩
  -- one closing position moves to the next one
  have hX : ∀ y ∈ V ++ [f], hit y = true → ∃ m ∈ V ++ [f], E.heap.fol y = [m] := by
    intro y hy hh
    simp at hy
    rcases hy with hy | hy
    · obtain ⟨i, hi⟩ := List.getElem?_of_mem hy
      obtain ⟨m, h1, h2⟩ := H.folV i y hi
      exact ⟨m, List.mem_of_getElem? h1, h2⟩
    · subst hy; rw [hfin] at hh; cases hh
  have hsing : ∀ y ∈ V ++ [f], dedup [] (([y].filter hit).flatMap E.heap.fol) = [] ∨
      ∃ y' ∈ V ++ [f], dedup [] (([y].filter hit).flatMap E.heap.fol) = [y'] := by
    intro y hy
    cases hh : hit y with
    | false => left; rw [List.filter_cons_of_neg (by simp [hh])]; rfl
    | true =>
      obtain ⟨m, h1, h2⟩ := hX y hy hh
      right
      refine ⟨m, h1, ?_⟩
      rw [List.filter_cons_of_pos hh, List.filter_nil, List.flatMap_cons, List.flatMap_nil,
        List.append_nil, h2, hone]
  obtain ⟨hvn, hv⟩ := hv
  rcases hv with ⟨n, hn, hv⟩ | ⟨Y, hv, hY⟩ | hv | ⟨y, hy, hv⟩
  · rw [hv]
    cases hh : hit n with
    | false =>
      rw [List.filter_cons_of_neg (by simp [hh])]
      exact .inr (.inr (.inl rfl))
    | true =>
      rw [List.filter_cons_of_pos hh, List.filter_nil, List.flatMap_cons, List.flatMap_nil, List.append_nil]
      obtain ⟨i, hi⟩ := List.getElem?_of_mem hn
      rcases H.folU i n hi with ⟨k, hk, he⟩ | he
      · rw [he, hone]; exact .inl ⟨k, hk, rfl⟩
      · rw [he, hsx]; exact .inr (.inl ⟨[x0], rfl, hinit⟩)
  · rw [hv, List.filter_append] at hnd ⊢
    cases hs : S.filter hit with
    | cons s0 rest =>
      rw [hs] at hnd
      have hs0 : s0 ∈ S := by
        have : s0 ∈ S.filter hit := by rw [hs]; simp
        exact (List.mem_filter.1 this).1
      rw [List.cons_append, List.flatMap_cons, H.folS s0 hs0, dedup_append, hsx] at hnd ⊢
      obtain ⟨z, hz1, hz2⟩ := dedup_sublist ((rest ++ Y.filter hit).flatMap E.heap.fol) (S ++ [x0])
      rw [hz1] at hnd ⊢
      refine .inr (.inl ⟨[x0] ++ z, by simp, fun y hy => ?_⟩)
      rcases List.mem_append.1 hy with hy | hy
      · exact hinit y hy
      · have hfresh : y ∉ S ++ [x0] := fun h => (List.nodup_append.1 hnd).2.2 y h y hy rfl
        obtain ⟨p, hp, hq⟩ := List.mem_flatMap.1 (hz2.subset hy)
        rcases List.mem_append.1 hp with hp | hp
        · have : p ∈ S := by
            have : p ∈ S.filter hit := by rw [hs]; simp [hp]
            exact (List.mem_filter.1 this).1
          rw [H.folS p this] at hq
          exact absurd hq hfresh
        · obtain ⟨hp, hh⟩ := List.mem_filter.1 hp
          obtain ⟨i, h1, h2⟩ := hY p hp
          by_cases hi : i < V.length
          · rw [List.getElem?_append_left hi] at h1
            obtain ⟨m, h3, h4⟩ := H.folV i p h1
            rw [h4] at hq
            simp at hq; subst hq
            refine ⟨i + 1, h3, fun k n hk hkn => ?_⟩
            by_cases hki : k = i
            · subst hki
              rw [h1] at hkn; cases hkn
              rcases H.dich p (List.mem_of_getElem? h1) with h5 | h5
              · exact h5
              · have hs0' : s0 ∈ S.filter hit := by rw [hs]; simp
                exact absurd (by simpa [hit] using (List.mem_filter.1 hs0').2)
                  (h5 x (by simpa [hit] using hh) s0 hs0)
            · exact h2 k n (by omega) hkn
          · rw [List.getElem?_append_right (by omega)] at h1
            have : p = f := by
              have := List.mem_of_getElem? h1
              simpa using this
            subst this
            rw [hfin] at hh; cases hh
    | nil =>
      rw [List.nil_append]
      have hnoS : ∀ s ∈ S, x ∉ idxOf E.tr E.mapping E.heap s := by
        intro s h1 h2
        have : s ∈ S.filter hit := List.mem_filter.2 ⟨h1, by simp [hit, h2]⟩
        rw [hs] at this; cases this
      have huniq : ∀ a ∈ Y.filter hit, ∀ b ∈ Y.filter hit, a = b := by
        intro a ha b hb
        obtain ⟨ha, ha'⟩ := List.mem_filter.1 ha
        obtain ⟨hb, hb'⟩ := List.mem_filter.1 hb
        obtain ⟨i, a1, a2⟩ := hY a ha
        obtain ⟨j, b1, b2⟩ := hY b hb
        have hlt : ∀ (c : Nat) (i : Nat), hit c = true → (V ++ [f])[i]? = some c → V[i]? = some c := by
          intro c i hc hi
          by_cases h : i < V.length
          · rwa [List.getElem?_append_left h] at hi
          · rw [List.getElem?_append_right (by omega)] at hi
            have : c = f := by simpa using List.mem_of_getElem? hi
            subst this
            rw [hfin] at hc; cases hc
        have a1' := hlt a i ha' a1
        have b1' := hlt b j hb' b1
        have ha'' : x ∈ idxOf E.tr E.mapping E.heap a := by simpa [hit] using ha'
        have hb'' : x ∈ idxOf E.tr E.mapping E.heap b := by simpa [hit] using hb'
        rcases Nat.lt_trichotomy i j with h | h | h
        · obtain ⟨s, s1, s2⟩ := b2 i a h a1' x ha''
          exact absurd s2 (hnoS s s1)
        · subst h; rw [a1'] at b1'; cases b1'; rfl
        · obtain ⟨s, s1, s2⟩ := a2 j b h b1' x hb''
          exact absurd s2 (hnoS s s1)
      have hnY : (Y.filter hit).Nodup := by
        rw [hv] at hvn
        exact (List.nodup_append.1 hvn).2.1.filter _
      cases hy : Y.filter hit with
      | nil => exact .inr (.inr (.inl rfl))
      | cons y l =>
        have hl : l = [] := by
          cases l with
          | nil => rfl
          | cons y' l =>
            rw [hy] at huniq hnY
            have := huniq y (by simp) y' (by simp)
            subst this
            simp at hnY
        subst hl
        have hmem : y ∈ Y.filter hit := by rw [hy]; simp
        obtain ⟨h1, h2⟩ := List.mem_filter.1 hmem
        obtain ⟨i, h3, _⟩ := hY y h1
        have := hsing y (List.mem_of_getElem? h3)
        rw [List.filter_cons_of_pos h2, List.filter_nil] at this
        exact .inr (.inr this)
  · rw [hv]; exact .inr (.inr (.inl rfl))
  · rw [hv]
    exact .inr (.inr (hsing y hy))

/-- Where the rule ends and no other rule is under way, a transition is either
impossible or made by non-greedy positions only. -/
theorem Pos.dead (H : Pos E G P U S V f x0) (v : List Nat) (x : Nat) (hv : Inv E P U S V f v)
    (hP : ∀ n ∈ v, P n = true) (hf : f ∈ v) :
    tgt E id v x = [] ∨ greedyAll E.heap (hitsOf E.tr E.mapping E.heap v x) = .no := by
  let hit : Nat → Bool := fun n => decide (x ∈ idxOf E.tr E.mapping E.heap n)
  have hfin : hit f = false := by simp [hit, H.fidx]
  show follAll E.heap (v.filter hit) = [] ∨ greedyAll E.heap (v.filter hit) = .no
  have hself : v.filter P = v := List.filter_eq_self.2 hP
  have hnd := H.nodup
  obtain ⟨_, hv⟩ := hv
  rw [hself] at hv
  rcases hv with ⟨n, hn, hv⟩ | ⟨Y, hv, hY⟩ | hv | ⟨y, hy, hv⟩
  · exfalso
    rw [hv] at hf
    simp at hf; subst hf
    simp only [List.append_assoc] at hnd
    exact (List.nodup_append.1 hnd).2.2 _ hn _ (by simp) rfl
  · have hfY : f ∈ Y := by
      rw [hv] at hf
      rcases List.mem_append.1 hf with h | h
      · exfalso
        simp only [List.append_assoc] at hnd
        exact (List.nodup_append.1 (List.nodup_append.1 hnd).2.1).2.2 _ h _ (by simp) rfl
      · exact h
    obtain ⟨i, h1, h2⟩ := hY f hfY
    have hi : V.length ≤ i := by
      rcases Nat.lt_or_ge i V.length with h | h
      · exfalso
        rw [List.getElem?_append_left h] at h1
        have := List.mem_of_getElem? h1
        exact (List.nodup_append.1 hnd).2.2 f (by simp [this]) f (by simp) rfl
      · exact h
    have hcov : ∀ n ∈ V, hit n = true → ∃ s ∈ S, hit s = true := by
      intro n hn hh
      obtain ⟨k, hk⟩ := List.getElem?_of_mem hn
      have hlt := (List.getElem?_eq_some_iff.1 hk).1
      obtain ⟨s, s1, s2⟩ := h2 k n (by omega) hk x (by simpa [hit] using hh)
      exact ⟨s, s1, by simp [hit, s2]⟩
    rw [hv, List.filter_append]
    cases hs : S.filter hit with
    | nil =>
      left
      have : Y.filter hit = [] := by
        apply List.filter_eq_nil_iff.2
        intro y hy hh
        obtain ⟨j, b1, _⟩ := hY y hy
        have hy' := List.mem_of_getElem? b1
        simp at hy'
        rcases hy' with hy' | rfl
        · obtain ⟨s, s1, s2⟩ := hcov y hy' hh
          have : s ∈ S.filter hit := List.mem_filter.2 ⟨s1, s2⟩
          rw [hs] at this; cases this
        · rw [hfin] at hh; cases hh
      rw [this]; rfl
    | cons s0 rest =>
      right
      have hs0 : s0 ∈ S := by
        have : s0 ∈ S.filter hit := by rw [hs]; simp
        exact (List.mem_filter.1 this).1
      rw [List.cons_append, greedyAll, H.grdS s0 hs0]
      have hall : ∀ n ∈ rest ++ Y.filter hit, E.heap.grd n ≠ .hard := by
        intro n hn
        rcases List.mem_append.1 hn with hn | hn
        · have : n ∈ S.filter hit := by rw [hs]; simp [hn]
          rw [H.grdS n (List.mem_filter.1 this).1]; simp
        · obtain ⟨hn, hh⟩ := List.mem_filter.1 hn
          obtain ⟨j, b1, _⟩ := hY n hn
          have hy' := List.mem_of_getElem? b1
          simp at hy'
          rcases hy' with hy' | rfl
          · exact H.grdV n hy'
          · rw [hfin] at hh; cases hh
      generalize rest ++ Y.filter hit = l at hall
      induction l with
      | nil => rfl
      | cons a l ih =>
        rw [List.foldl_cons]
        have : Equivset.processGreedy .no (E.heap.grd a) = .no := by
          have := hall a (by simp)
          cases hg : E.heap.grd a with
          | hard => exact absurd hg this
          | yes => rfl
          | no => rfl
        rw [this]
        exact ih fun n hn => hall n (by simp [hn])
  · rw [hv] at hf; cases hf
  · left
    rw [hv] at hf ⊢
    simp at hf; subst hf
    rw [List.filter_cons_of_neg (by simp [hfin])]
    rfl

end
end Enc
end Lexertl
