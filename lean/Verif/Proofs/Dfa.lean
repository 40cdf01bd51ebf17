import Verif.Proofs.Equiv

/-
The subset construction of `build_dfa`: the rows are exactly the reachable
position sets and the cells are exactly the moves between them.
-/
namespace Lexertl

/-- Cell of a table of rows (0 outside the table). -/
def cellOf (rows : List Row) (r c : Nat) : Nat :=
  match rows[r]? with
  | none => 0
  | some row => row[c]?.getD 0

theorem cellOf_out {rows : List Row} {r : Nat} (h : rows.length ≤ r) (c : Nat) :
    cellOf rows r c = 0 := by
  unfold cellOf; rw [List.getElem?_eq_none h]

theorem cellOf_append_left (rows : List Row) (e : List Row) (r c : Nat) (h : r < rows.length) :
    cellOf (rows ++ e) r c = cellOf rows r c := by
  unfold cellOf; rw [List.getElem?_append_left h]

theorem getCell_spec {rows : List Row} {size r c : Nat} (hw : ∀ r ∈ rows, r.length = size)
    (hr : r < rows.length) (hc : c < size) : getCell rows r c = .ok (cellOf rows r c) := by
  unfold getCell cellOf
  rw [List.getElem?_eq_getElem hr]
  have := hw _ (List.getElem_mem hr)
  simp only
  rw [List.getElem?_eq_getElem (by omega)]
  rfl

theorem setCell_spec {rows : List Row} {size r c v : Nat} (hw : ∀ r ∈ rows, r.length = size)
    (hr : r < rows.length) (hc : c < size) :
    ∃ rows', setCell rows r c v = .ok rows' ∧ rows'.length = rows.length ∧
      (∀ r ∈ rows', r.length = size) ∧
      ∀ r' c', cellOf rows' r' c' = if r' = r ∧ c' = c then v else cellOf rows r' c' := by
  have hlen := hw _ (List.getElem_mem hr)
  refine ⟨rows.set r (rows[r].set c v), ?_, by simp, ?_, ?_⟩
  · unfold setCell
    rw [List.getElem?_eq_getElem hr]
    simp only
    rw [if_pos (by omega)]
  · intro q hq
    rcases List.mem_or_eq_of_mem_set hq with h | h
    · exact hw q h
    · rw [h, List.length_set]; exact hlen
  · intro r' c'
    unfold cellOf
    by_cases h : r' = r
    · subst h
      rw [List.getElem?_set_self hr]
      simp only [true_and]
      by_cases h2 : c' = c
      · subst h2
        rw [if_pos rfl, List.getElem?_set_self (by omega)]
        rfl
      · rw [if_neg h2, List.getElem?_set_ne (Ne.symm h2), List.getElem?_eq_getElem hr]
    · rw [if_neg (fun h' => h h'.1), List.getElem?_set_ne (Ne.symm h)]

theorem mem_dedup (l : List Nat) : ∀ acc n, n ∈ dedup acc l ↔ n ∈ acc ∨ n ∈ l := by
  induction l with
  | nil => simp [dedup]
  | cons a l ih =>
    intro acc n
    unfold dedup
    split
    · rw [ih]; simp; grind
    · rw [ih]; simp; grind

theorem nodup_dedup (l : List Nat) : ∀ acc, acc.Nodup → (dedup acc l).Nodup := by
  induction l with
  | nil => intro acc h; exact h
  | cons a l ih =>
    intro acc h
    unfold dedup
    split
    · exact ih _ h
    · refine ih _ (List.nodup_append.2 ⟨h, by simp, ?_⟩)
      intro x hx y hy he
      simp at hy
      subst hy; subst he
      contradiction

theorem sameSet_iff (a b : List Nat) : sameSet a b = true ↔ ∀ q, q ∈ a ↔ q ∈ b := by
  unfold sameSet
  simp only [Bool.and_eq_true, List.all_eq_true, decide_eq_true_eq]
  exact ⟨fun h q => ⟨h.1 q, h.2 q⟩, fun h => ⟨fun q hq => (h q).1 hq, fun q hq => (h q).2 hq⟩⟩

/-- The hash of generator.hpp:999. -/
def hashOf (addr : Nat → Nat) (v : List Nat) : Nat := (v.map addr).sum % 2 ^ 64

theorem hashOf_congr (addr : Nat → Nat) {a b : List Nat} (ha : a.Nodup) (hb : b.Nodup)
    (h : ∀ q, q ∈ a ↔ q ∈ b) : hashOf addr a = hashOf addr b := by
  have hp : a.Perm b := (List.perm_ext_iff_of_nodup ha hb).2 h
  unfold hashOf
  rw [(hp.map addr).sum_nat]

/-- Looking a set up by its hash finds it iff it is there. -/
theorem findSeen_spec (addr : Nat → Nat) (v : List Nat) (hv : v.Nodup) (seen : List (List Nat))
    (hs : ∀ s ∈ seen, s.Nodup) :
    findSeen (hashOf addr v) v (seen.map (hashOf addr)) seen = seen.findIdx? (sameSet · v) := by
  induction seen with
  | nil => rfl
  | cons s seen ih =>
    rw [List.map_cons, findSeen, List.findIdx?_cons, ih fun s h => hs s (List.mem_cons_of_mem _ h)]
    cases h : sameSet s v with
    | false => simp
    | true =>
      rw [hashOf_congr addr (hs s (by simp)) hv ((sameSet_iff s v).1 h)]
      simp

theorem firstEnd_dedup (h : Heap) (l : List Nat) :
    ∀ acc, (∀ n ∈ acc, ∃ tk, h.tokOf n = some tk) → firstEnd h (dedup acc l) = firstEnd h (acc ++ l) := by
  have skip : ∀ (acc l : List Nat), (∀ n ∈ acc, ∃ tk, h.tokOf n = some tk) →
      firstEnd h (acc ++ l) = firstEnd h l := by
    intro acc l hacc
    induction acc with
    | nil => rfl
    | cons a acc ih =>
      obtain ⟨tk, htk⟩ := hacc a (by simp)
      rw [List.cons_append, firstEnd, Heap.cell_leaf htk]
      exact ih fun n hn => hacc n (List.mem_cons_of_mem _ hn)
  have stop : ∀ (l : List Nat) (acc : List Nat) (n : Nat) (m : List Nat),
      (∀ n ∈ acc, ∃ tk, h.tokOf n = some tk) → h.tokOf n = none →
      ∃ m', dedup (acc ++ n :: m) l = acc ++ n :: m' := by
    intro l
    induction l with
    | nil => intro acc n m _ _; exact ⟨m, rfl⟩
    | cons a l ih =>
      intro acc n m ha hn
      unfold dedup
      split
      · exact ih acc n m ha hn
      · have := ih acc n (m ++ [a]) ha hn
        simpa using this
  induction l with
  | nil => intro acc _; simp [dedup]
  | cons a l ih =>
    intro acc hacc
    unfold dedup
    split
    · rename_i hin
      rw [ih acc hacc, skip acc l hacc, skip acc _ hacc]
      obtain ⟨tk, htk⟩ := hacc a hin
      rw [firstEnd, Heap.cell_leaf htk]
    · cases hc : h.tokOf a with
      | some tk =>
        rw [ih (acc ++ [a]) (by
          intro n hn
          rcases List.mem_append.1 hn with hn | hn
          · exact hacc n hn
          · simp at hn; subst hn; exact ⟨tk, hc⟩)]
        simp
      | none =>
        obtain ⟨m', hm'⟩ := stop l acc a [] hacc hc
        rw [hm', skip acc _ hacc, skip acc _ hacc]
        unfold Heap.tokOf at hc
        rw [firstEnd, firstEnd]
        cases hh : h[a]? with
        | none => rfl
        | some c =>
          obtain ⟨d, f⟩ := c
          cases d with
          | leaf t g => rw [hh] at hc; simp at hc
          | fin => rfl

/-- At most `2^n` different subsets of `{0, ..., n-1}`. -/
theorem bool_lists_le (n : Nat) : ∀ (L : List (List Bool)), L.Nodup → (∀ l ∈ L, l.length = n) →
    L.length ≤ 2 ^ n := by
  induction n with
  | zero =>
    intro L hn hl
    match L with
    | [] => simp
    | [a] => simp
    | a :: b :: L =>
      have h1 := List.length_eq_zero_iff.1 (hl a (by simp))
      have h2 := List.length_eq_zero_iff.1 (hl b (by simp))
      subst h1; subst h2
      simp at hn
  | succ n ih =>
    intro L hn hl
    have key : ∀ b : Bool, (L.filter fun l => l.head? == some b).length ≤ 2 ^ n := by
      intro b
      rw [← List.length_map (f := List.tail)]
      apply ih
      · rw [List.nodup_iff_pairwise_ne, List.pairwise_map]
        refine List.Pairwise.imp_of_mem ?_ (List.nodup_iff_pairwise_ne.1 (hn.filter _))
        intro x y hx hy hne he
        apply hne
        have hx := List.mem_filter.1 hx
        have hy := List.mem_filter.1 hy
        cases x with
        | nil => simp at hx
        | cons a x =>
          cases y with
          | nil => simp at hy
          | cons c y =>
            simp at hx hy he
            rw [hx.2, hy.2, he]
      · intro l hl'
        obtain ⟨m, hm, rfl⟩ := List.mem_map.1 hl'
        have := hl m (List.mem_filter.1 hm).1
        simp [this]
    have hsplit : L.length = (L.filter fun l => l.head? == some true).length +
        (L.filter fun l => l.head? == some false).length := by
      clear hn ih key
      induction L with
      | nil => rfl
      | cons a L ih =>
        have := ih fun l h => hl l (List.mem_cons_of_mem _ h)
        have ha := hl a (by simp)
        cases a with
        | nil => simp at ha
        | cons b a => cases b <;> simp at * <;> omega
    have h1 := key true
    have h2 := key false
    rw [Nat.pow_succ]; omega

theorem subsets_le (n : Nat) (seen : List (List Nat)) (hs : ∀ s ∈ seen, ∀ q ∈ s, q < n)
    (hd : seen.Pairwise fun a b => sameSet a b = false) : seen.length ≤ 2 ^ n := by
  have := bool_lists_le n (seen.map fun s => (List.range n).map fun i => decide (i ∈ s)) ?_ ?_
  · simpa using this
  · rw [List.nodup_iff_pairwise_ne, List.pairwise_map]
    refine List.Pairwise.imp_of_mem ?_ hd
    intro a b ha hb hab he
    have : sameSet a b = true := by
      rw [sameSet_iff]
      intro q
      by_cases hq : q < n
      · have := congrArg (fun l => l[q]?) he
        simp [List.getElem?_range hq] at this
        exact this
      · exact ⟨fun h => absurd (hs a ha q h) hq, fun h => absurd (hs b hb q h) hq⟩
    rw [this] at hab
    cases hab
  · intro l hl
    obtain ⟨s, _, rfl⟩ := List.mem_map.1 hl
    simp


/-- Follow positions reached from `v` on `x`, after `prune_eol_clashes`. -/
def tgt (E : DfaEnv) (pr : List Nat → List Nat) (v : List Nat) (x : Nat) : List Nat :=
  pr (follAll E.heap (hitsOf E.tr E.mapping E.heap v x))

/-- The transition on `x` is left out: the state ends a non-greedy rule and all
moves are non-greedy. -/
def Skips (E : DfaEnv) (v : List Nat) (x : Nat) : Prop :=
  (∃ a b c d e f, firstEnd E.heap v = .ok (some (.fin a b c d e f .no))) ∧
    greedyAll E.heap (hitsOf E.tr E.mapping E.heap v x) = .no

/-- An index the construction works on: a class, `^` or `$`. -/
def Valid (tr : Traits) (ncls x : Nat) : Prop := x < ncls ∨ x = tr.bolToken ∨ x = tr.eolToken

/-- What is needed of the inputs.  `Q` holds of all position lists met. -/
structure EnvOk (E : DfaEnv) (ncls : Nat) (pr : List Nat → List Nat) (Q : List Nat → Prop) : Prop where
  size : ncls + 7 ≤ E.size
  npos : E.size ≤ E.tr.npos
  node : ∀ v, Q v → ∀ n ∈ v, NodeOk E.tr E.mapping ncls E.heap n ∧ n < E.heap.length
  prune : ∀ v x, Q v → Valid E.tr ncls x →
    pruneEolClashes E.tr E.heap E.mapping E.cr E.nl
      (follAll E.heap (hitsOf E.tr E.mapping E.heap v x)).length
      (follAll E.heap (hitsOf E.tr E.mapping E.heap v x)) = .ok (tgt E pr v x)
  prnil : pr [] = []
  next : ∀ v x, Q v → Valid E.tr ncls x → Q (dedup [] (tgt E pr v x))
  nextOk : ∀ v x, Q v → Valid E.tr ncls x → ∀ n ∈ tgt E pr v x, NodeOk E.tr E.mapping ncls E.heap n
  det : ∀ a b, Q a → Q b → (∀ q, q ∈ a ↔ q ∈ b) → firstEnd E.heap a = firstEnd E.heap b

theorem firstEnd_ok {E : DfaEnv} {ncls : Nat} (l : List Nat)
    (h : ∀ n ∈ l, NodeOk E.tr E.mapping ncls E.heap n) :
    ∃ e, firstEnd E.heap l = .ok e ∧ (e = none ∨ ∃ a b c d f g i, e = some (.fin a b c d f g i)) := by
  induction l with
  | nil => exact ⟨none, rfl, .inl rfl⟩
  | cons n l ih =>
    rcases h n (by simp) with ⟨d, hd⟩ | ⟨tk, htk, _⟩
    · obtain ⟨a, b, c, e, f, g, i, k, he, _⟩ := Heap.cell_fin hd
      exact ⟨_, by rw [firstEnd, he], .inr ⟨_, _, _, _, _, _, _, rfl⟩⟩
    · obtain ⟨e, h1, h2⟩ := ih fun n hn => h n (List.mem_cons_of_mem _ hn)
      exact ⟨e, by rw [firstEnd, Heap.cell_leaf htk]; exact h1, h2⟩

/-- Invariant of the local variables of `build_dfa`. -/
structure DInv (E : DfaEnv) (ncls : Nat) (Q : List Nat → Prop) (used0 : List Nat) (D : DState) : Prop where
  len : D.rows.length = D.seen.length + 1
  width : ∀ r ∈ D.rows, r.length = E.size
  hsh : D.hashes = D.seen.map (hashOf E.addr)
  q : ∀ v ∈ D.seen, Q v ∧ v ≠ [] ∧ v.Nodup
  dist : D.seen.Pairwise fun a b => sameSet a b = false
  ends : ∀ k v, D.seen[k]? = some v → ∃ e, firstEnd E.heap v = .ok e ∧
    ∀ c, c < 5 → cellOf D.rows (k + 1) c = cellOf [newRow E.size e] 0 c
  used : ∀ u, u ∈ D.used ↔ u ∈ used0 ∨ (E.allowSuppressed = false ∧
    ∃ v ∈ D.seen, ∃ a b d e f g, firstEnd E.heap v = .ok (some (.fin a b u d e f g)))
  zero : ∀ k c, (c = 6 ∨ (k = 0 ∧ c ≠ 0) ∨ ncls + 7 ≤ c) → cellOf D.rows k c = 0
  eol : ∀ r, r ∈ D.eolSet ↔ cellOf D.rows r ixEol ≠ 0
  eolSorted : D.eolSet.Pairwise (· < ·)

theorem cellOf_single (row : Row) (c : Nat) : cellOf [row] 0 c = row[c]?.getD 0 := rfl

theorem newRow_length {size : Nat} (h : 7 ≤ size) (e : Option NodeData) :
    (newRow size e).length = size := by
  unfold newRow
  split
  · simp; omega
  · simp

theorem getElem?_replicate_zero (n c : Nat) : (List.replicate n 0)[c]?.getD 0 = 0 := by
  rw [List.getElem?_replicate]; split <;> rfl

theorem newRow_zero (size : Nat) (e : Option NodeData) (c : Nat) (hc : 5 ≤ c) :
    cellOf [newRow size e] 0 c = 0 := by
  rw [cellOf_single]
  unfold newRow
  split
  · rw [List.getElem?_append_right (by simp; omega)]
    exact getElem?_replicate_zero _ _
  · exact getElem?_replicate_zero _ _

theorem cellOf_snoc (rows : List Row) (row : Row) (r c : Nat) :
    cellOf (rows ++ [row]) r c = if r = rows.length then cellOf [row] 0 c else cellOf rows r c := by
  by_cases h : r < rows.length
  · rw [cellOf_append_left _ _ _ _ h, if_neg (by omega)]
  · by_cases h2 : r = rows.length
    · subst h2
      unfold cellOf
      rw [if_pos rfl, List.getElem?_append_right (Nat.le_refl _)]
      simp
    · rw [if_neg h2, cellOf_out (by simp; omega), cellOf_out (by omega)]

section
variable {E : DfaEnv} {ncls : Nat} {pr : List Nat → List Nat} {Q : List Nat → Prop}

theorem closure_spec (H : EnvOk E ncls pr Q) (used0 : List Nat) (D : DState)
    (hD : DInv E ncls Q used0 D) (fp : List Nat) (hne : fp ≠ []) (hq : Q (dedup [] fp))
    (hok : ∀ n ∈ fp, NodeOk E.tr E.mapping ncls E.heap n) :
    ∃ j D', closure E D fp = .ok (some (j + 1), D') ∧ DInv E ncls Q used0 D' ∧
      (∃ ext, D'.seen = D.seen ++ ext) ∧ (∃ s, D'.seen[j]? = some s ∧ ∀ q, q ∈ s ↔ q ∈ fp) ∧
      (∀ r c, (5 ≤ c ∨ r < D.rows.length) → cellOf D'.rows r c = cellOf D.rows r c) ∧
      (∀ x, x ∈ D'.seen → x ∈ D.seen ∨ x = dedup [] fp) ∧ D'.eolSet = D.eolSet := by
  obtain ⟨e, he1, he2⟩ := firstEnd_ok fp hok
  have hmem : ∀ q, q ∈ dedup [] fp ↔ q ∈ fp := fun q => by rw [mem_dedup]; simp
  have hnd := nodup_dedup fp [] List.nodup_nil
  have hfe : firstEnd E.heap (dedup [] fp) = .ok e := by
    rw [firstEnd_dedup _ _ _ (by simp)]; simpa using he1
  have hfind := findSeen_spec E.addr (dedup [] fp) hnd D.seen fun s hs => (hD.q s hs).2.2
  rw [← hD.hsh] at hfind
  -- the set of used rules
  have hused : ∀ u, u ∈ (match e with
      | some (.fin _ _ u ..) => if E.allowSuppressed then D.used else setInsert u D.used
      | _ => D.used) ↔ u ∈ D.used ∨ (E.allowSuppressed = false ∧
        ∃ a b d e f g, firstEnd E.heap (dedup [] fp) = .ok (some (.fin a b u d e f g))) := by
    intro u
    rw [hfe]
    rcases he2 with rfl | ⟨a, b, c, d, f, g, i, rfl⟩
    · simp
    · cases E.allowSuppressed
      · simp only [Bool.false_eq_true, if_false, mem_setInsert, true_and]
        constructor
        · rintro (rfl | h)
          · exact .inr ⟨a, b, d, f, g, i, rfl⟩
          · exact .inl h
        · rintro (h | ⟨a', b', d', e', f', g', h⟩)
          · exact .inr h
          · injection h with h; injection h with h; injection h with _ _ h
            exact .inl h.symm
      · simp
  cases fp with
  | nil => exact absurd rfl hne
  | cons f0 fs =>
  cases hf : D.seen.findIdx? (sameSet · (dedup [] (f0 :: fs))) with
  | some i =>
    rw [hf] at hfind
    obtain ⟨hi, hs, _⟩ := List.findIdx?_eq_some_iff_getElem.1 hf
    have hs' := (sameSet_iff _ _).1 hs
    refine ⟨i, { D with used := (match e with
      | some (.fin _ _ u ..) => if E.allowSuppressed then D.used else setInsert u D.used
      | _ => D.used) }, ?_, ?_, ⟨[], by simp⟩, ⟨D.seen[i], List.getElem?_eq_getElem hi, ?_⟩,
      fun r c _ => rfl, fun x hx => .inl hx, rfl⟩
    · unfold closure
      simp only [he1, bind, Except.bind]
      unfold hashOf at hfind
      rw [hfind]
      rcases he2 with rfl | ⟨a, b, c, d, f, g, i, rfl⟩ <;> rfl
    · refine { hD with used := fun u => ?_ }
      rw [hused u, hD.used u]
      constructor
      · rintro (h | ⟨h1, h2⟩)
        · exact h
        · refine .inr ⟨h1, D.seen[i], List.getElem_mem hi, ?_⟩
          rw [H.det _ _ (hD.q _ (List.getElem_mem hi)).1 hq hs']
          exact h2
      · exact .inl
    · intro q; rw [hs' q, hmem]
  | none =>
    rw [hf] at hfind
    have hnone : ∀ s ∈ D.seen, sameSet s (dedup [] (f0 :: fs)) = false := by
      intro s hs
      have := List.findIdx?_eq_none_iff.1 hf s hs
      simpa using this
    have hsz : 7 ≤ E.size := by have := H.size; omega
    refine ⟨D.seen.length, { D with
        used := (match e with
          | some (.fin _ _ u ..) => if E.allowSuppressed then D.used else setInsert u D.used
          | _ => D.used),
        seen := D.seen ++ [dedup [] (f0 :: fs)],
        hashes := D.hashes ++ [hashOf E.addr (dedup [] (f0 :: fs))],
        rows := D.rows ++ [newRow E.size e] }, ?_, ?_, ⟨_, rfl⟩,
      ⟨dedup [] (f0 :: fs), by simp, hmem⟩, ?_, ?_, rfl⟩
    · unfold closure
      simp only [he1, bind, Except.bind]
      have hf2 : findSeen ((List.map E.addr (dedup [] (f0 :: fs))).sum % 2 ^ 64)
        (dedup [] (f0 :: fs)) D.hashes D.seen = none := hfind
      rw [hf2]
      rcases he2 with rfl | ⟨a, b, c, d, f, g, i, rfl⟩ <;> rfl
    · refine ⟨?_, ?_, ?_, ?_, ?_, ?_, ?_, ?_, ?_, hD.eolSorted⟩
      · simp [hD.len]
      · intro r hr
        rcases List.mem_append.1 hr with h | h
        · exact hD.width r h
        · simp at h; rw [h]; exact newRow_length hsz e
      · simp [hD.hsh]
      · intro v hv
        rcases List.mem_append.1 hv with h | h
        · exact hD.q v h
        · simp at h; rw [h]
          refine ⟨hq, ?_, hnd⟩
          intro h0
          have := (hmem f0).2 (by simp)
          rw [h0] at this; cases this
      · rw [List.pairwise_append]
        refine ⟨hD.dist, by simp, ?_⟩
        intro a ha b hb
        simp at hb; rw [hb]; exact hnone a ha
      · intro k v hk
        simp only at hk ⊢
        by_cases h : k < D.seen.length
        · rw [List.getElem?_append_left h] at hk
          obtain ⟨e', a1, a2⟩ := hD.ends k v hk
          refine ⟨e', a1, fun c hc => ?_⟩
          rw [cellOf_append_left _ _ _ _ (by rw [hD.len]; omega)]
          exact a2 c hc
        · rw [List.getElem?_append_right (by omega)] at hk
          have hk0 : k = D.seen.length := by
            by_cases hk2 : k - D.seen.length = 0
            · omega
            · rw [List.getElem?_eq_none (by simp; omega)] at hk; cases hk
          subst hk0
          simp at hk; subst hk
          refine ⟨e, hfe, fun c _ => ?_⟩
          rw [cellOf_snoc, if_pos hD.len.symm]
      · intro u
        simp only [hused u, hD.used u, List.mem_append, List.mem_singleton]
        constructor
        · rintro ((h | ⟨h1, v, hv, h2⟩) | ⟨h1, h2⟩)
          · exact .inl h
          · exact .inr ⟨h1, v, .inl hv, h2⟩
          · exact .inr ⟨h1, _, .inr rfl, h2⟩
        · rintro (h | ⟨h1, v, hv | rfl, h2⟩)
          · exact .inl (.inl h)
          · exact .inl (.inr ⟨h1, v, hv, h2⟩)
          · exact .inr ⟨h1, h2⟩
      · intro k c hc
        simp only
        rw [cellOf_snoc]
        split
        · rename_i hk
          rcases hc with h | h | h
          · exact newRow_zero _ _ _ (by omega)
          · have := hD.len; omega
          · exact newRow_zero _ _ _ (by omega)
        · exact hD.zero k c hc
      · intro r
        simp only
        rw [cellOf_snoc, hD.eol]
        split
        · rename_i hk
          rw [newRow_zero _ _ _ (by simp [ixEol]), cellOf_out (by omega)]
        · rfl
    · intro r c hrc
      simp only
      rw [cellOf_snoc]
      split
      · rename_i hk
        rw [newRow_zero _ _ _ (by omega), cellOf_out (by omega)]
      · rfl
    · intro x hx
      rcases List.mem_append.1 hx with h | h
      · exact .inl h
      · exact .inr (by simpa using h)

/-- Where the transition of state `index` on `x` is stored. -/
def slot (tr : Traits) (index x : Nat) : Nat × Nat :=
  if x = tr.bolToken then (0, 0) else if x = tr.eolToken then (index + 1, ixEol)
  else (index + 1, x + ixTransitions)

def slotVal (tr : Traits) (rows : List Row) (index x : Nat) : Nat :=
  cellOf rows (slot tr index x).1 (slot tr index x).2

theorem slot_inj (H : EnvOk E ncls pr Q) {i x y : Nat} (_hx : Valid E.tr ncls x)
    (_hy : Valid E.tr ncls y) (h : slot E.tr i x = slot E.tr i y) : x = y := by
  have h1 := H.size; have h2 := H.npos
  unfold Valid at *
  have hb : E.tr.bolToken = E.tr.npos - 1 := rfl
  have he : E.tr.eolToken = E.tr.npos - 2 := rfl
  unfold slot at h
  have h3 := congrArg Prod.fst h
  have h4 := congrArg Prod.snd h
  clear h
  simp only [ixEol, ixTransitions] at h3 h4
  rw [hb, he] at *
  by_cases x1 : x = E.tr.npos - 1
  · by_cases y1 : y = E.tr.npos - 1
    · omega
    · rw [if_pos x1, if_neg y1] at h3
      split at h3 <;> simp at h3
  · rw [if_neg x1] at h3 h4
    by_cases y1 : y = E.tr.npos - 1
    · rw [if_pos y1] at h3
      split at h3 <;> simp at h3
    · rw [if_neg y1] at h3 h4
      split at h4 <;> split at h4 <;> simp at h4 <;> omega

theorem slot_inj_index {tr : Traits} {i j x y : Nat} (hx : x ≠ tr.bolToken)
    (h : slot tr i x = slot tr j y) : i = j := by
  unfold slot at h
  rw [if_neg hx] at h
  have h1 := congrArg Prod.fst h
  clear h
  (repeat' split at h1) <;> simp at h1 <;> omega

/-- One write per index. -/
theorem setTransitions_spec (H : EnvOk E ncls pr Q) (used0 : List Nat) (index t : Nat) (ht : t ≠ 0)
    (is : List Nat) : ∀ (D : DState), DInv E ncls Q used0 D → index < D.seen.length →
    (∀ x ∈ is, Valid E.tr ncls x) →
    ∃ D', setTransitions E t index is D = .ok D' ∧ DInv E ncls Q used0 D' ∧ D'.seen = D.seen ∧
      (∀ x ∈ is, slotVal E.tr D'.rows index x = t) ∧
      (∀ r c, (∀ x ∈ is, slot E.tr index x ≠ (r, c)) → cellOf D'.rows r c = cellOf D.rows r c) := by
  induction is with
  | nil => intro D hD _ _; exact ⟨D, rfl, hD, rfl, by simp, fun _ _ _ => rfl⟩
  | cons x is ih =>
    intro D hD hi hv
    have h1 := H.size; have h2 := H.npos
    -- the first write
    have hslot : ∃ D1, DInv E ncls Q used0 D1 ∧ D1.seen = D.seen ∧
        setTransitions E t index (x :: is) D = setTransitions E t index is D1 ∧
        ∀ r c, cellOf D1.rows r c = if (r, c) = slot E.tr index x then t else cellOf D.rows r c := by
      have hvx := hv x (by simp)
      unfold Valid at hvx
      have hrow : (slot E.tr index x).1 < D.rows.length ∧ (slot E.tr index x).2 < E.size := by
        unfold slot
        simp only [Traits.bolToken, Traits.eolToken] at hvx
        rw [hD.len]
        split
        · exact ⟨by simp, by simp; omega⟩
        · split
          · exact ⟨by simp; omega, by simp [ixEol]; omega⟩
          · rename_i ha hb
            simp only [Traits.bolToken, Traits.eolToken] at ha hb
            exact ⟨by simp; omega, by simp [ixTransitions]; omega⟩
      obtain ⟨rows', b1, b2, b3, b4⟩ := setCell_spec (v := t) hD.width hrow.1 hrow.2
      have hb4 : ∀ r c, cellOf rows' r c = if (r, c) = slot E.tr index x then t else
          cellOf D.rows r c := by
        intro r c
        rw [b4 r c]
        have : ((r, c) = slot E.tr index x) ↔ (r = (slot E.tr index x).1 ∧ c = (slot E.tr index x).2) :=
          Prod.ext_iff
        simp only [this]
      have hends : ∀ k v, D.seen[k]? = some v → ∃ e, firstEnd E.heap v = .ok e ∧
          ∀ c, c < 5 → cellOf rows' (k + 1) c = cellOf [newRow E.size e] 0 c := by
        intro k v hk
        obtain ⟨e, a1, a2⟩ := hD.ends k v hk
        refine ⟨e, a1, fun c hc => ?_⟩
        rw [hb4, if_neg, a2 c hc]
        unfold slot
        split
        · simp
        · split <;> simp [ixEol, ixTransitions] <;> omega
      have hzero : ∀ k c, (c = 6 ∨ (k = 0 ∧ c ≠ 0) ∨ ncls + 7 ≤ c) → cellOf rows' k c = 0 := by
        intro k c hc
        rw [hb4, if_neg, hD.zero k c hc]
        simp only [Traits.bolToken, Traits.eolToken] at hvx
        unfold slot
        split
        · simp; omega
        · split
          · simp [ixEol]; omega
          · rename_i ha hb
            simp only [Traits.bolToken, Traits.eolToken] at ha hb
            simp [ixTransitions]; omega
      by_cases hb : x = E.tr.bolToken
      · have hs : slot E.tr index x = (0, 0) := by simp [slot, hb]
        rw [hs] at b1 hb4
        refine ⟨{ D with rows := rows' }, ?_, rfl, ?_, fun r c => by rw [hb4, hs]⟩
        · exact { hD with
            len := by rw [b2, hD.len]
            width := b3
            ends := hends
            zero := hzero
            eol := fun r => by rw [hD.eol]; simp only; rw [hb4, if_neg (by simp [ixEol])] }
        · rw [setTransitions, if_pos hb, b1]; rfl
      · by_cases he : x = E.tr.eolToken
        · have hs : slot E.tr index x = (index + 1, ixEol) := by
            unfold slot; rw [if_neg hb, if_pos he]
          rw [hs] at b1 hb4
          refine ⟨{ D with rows := rows', eolSet := setInsert (index + 1) D.eolSet }, ?_, rfl, ?_,
            fun r c => by rw [hb4, hs]⟩
          · exact { hD with
              len := by rw [b2, hD.len]
              width := b3
              ends := hends
              zero := hzero
              eol := fun r => by
                simp only [mem_setInsert, hb4, Prod.mk.injEq, and_true]
                split
                · rename_i hr; simp [hr, ht]
                · rename_i hr; rw [hD.eol]; simp [hr]
              eolSorted := pairwise_setInsert _ _ hD.eolSorted }
          · rw [setTransitions, if_neg hb, if_pos he, b1]; rfl
        · have hs : slot E.tr index x = (index + 1, x + ixTransitions) := by
            unfold slot; rw [if_neg hb, if_neg he]
          rw [hs] at b1 hb4
          refine ⟨{ D with rows := rows' }, ?_, rfl, ?_, fun r c => by rw [hb4, hs]⟩
          · exact { hD with
              len := by rw [b2, hD.len]
              width := b3
              ends := hends
              zero := hzero
              eol := fun r => by
                rw [hD.eol]; simp only; rw [hb4, if_neg (by simp [ixEol, ixTransitions])] }
          · rw [setTransitions, if_neg hb, if_neg he, b1]; rfl
    obtain ⟨D1, c1, c2, c3, c4⟩ := hslot
    obtain ⟨D2, d1, d2, d3, d4, d5⟩ := ih D1 c1 (by rw [c2]; exact hi)
      fun y hy => hv y (List.mem_cons_of_mem _ hy)
    refine ⟨D2, by rw [c3]; exact d1, d2, d3.trans c2, ?_, ?_⟩
    · intro y hy
      by_cases hyi : y ∈ is
      · exact d4 y hyi
      · have hyx : y = x := (List.mem_cons.1 hy).resolve_right hyi
        subst hyx
        unfold slotVal
        rw [d5 _ _ ?_, c4, if_pos rfl]
        intro z hz h
        exact hyi ((slot_inj H (hv z (by simp [hz])) (hv y (by simp)) h) ▸ hz)
    · intro r c h
      rw [d5 r c fun y hy => h y (List.mem_cons_of_mem _ hy), c4, if_neg]
      exact fun h' => h x (by simp) h'.symm


/-- The transition of the state `v` on `x` is `val`, among the states `seen`. -/
def CellIs (E : DfaEnv) (pr : List Nat → List Nat) (seen : List (List Nat)) (v : List Nat)
    (x val : Nat) : Prop :=
  (tgt E pr v x = [] ∧ val = 0) ∨
  (tgt E pr v x ≠ [] ∧ ∃ j s, seen[j]? = some s ∧ (∀ q, q ∈ s ↔ q ∈ tgt E pr v x) ∧
    ((Skips E v x ∧ val = 0) ∨ (¬ Skips E v x ∧ val = j + 1)))

theorem CellIs.mono {seen ext : List (List Nat)} {v : List Nat} {x val : Nat}
    (h : CellIs E pr seen v x val) : CellIs E pr (seen ++ ext) v x val := by
  rcases h with h | ⟨h1, j, s, h4, h5⟩
  · exact .inl h
  · refine .inr ⟨h1, j, s, ?_, h5⟩
    rw [List.getElem?_append_left (List.getElem?_eq_some_iff.1 h4).1]
    exact h4

theorem valid_of_hits (H : EnvOk E ncls pr Q) {v : List Nat} (hv : Q v) {x : Nat}
    (h : hitsOf E.tr E.mapping E.heap v x ≠ []) : Valid E.tr ncls x := by
  obtain ⟨n, hn⟩ := List.exists_mem_of_ne_nil _ h
  unfold hitsOf at hn
  rw [List.mem_filter, decide_eq_true_eq] at hn
  obtain ⟨hnv, hx⟩ := hn
  unfold idxOf at hx
  rcases (H.node v hv n hnv).1 with ⟨d, hd⟩ | ⟨tk, htk, h2⟩
  · rw [Heap.tok_of_fin hd] at hx; cases hx
  · rw [htk] at hx
    simp only at hx
    split at hx
    · cases hx
    · rename_i hn0
      split at hx
      · rename_i hbe
        rw [List.mem_singleton] at hx
        subst hx
        exact .inr hbe
      · rename_i hbe
        rcases h2 with h2 | h2 | h2 | ⟨s, h2, _, _, h3⟩
        · exact absurd h2 hn0
        · exact absurd (.inl h2) hbe
        · exact absurd (.inr h2) hbe
        · rw [h2] at hx
          exact .inl (h3 x hx)

theorem lazy_cell (e : Option NodeData) (size : Nat)
    (he : e = none ∨ ∃ a b c d f g i, e = some (.fin a b c d f g i)) :
    (cellOf [newRow size e] 0 0 ≠ 0 ∧ cellOf [newRow size e] 0 0 / 2 % 2 = 0) ↔
      ∃ a b c d f g, e = some (.fin a b c d f g .no) := by
  rcases he with rfl | ⟨a, b, c, d, f, g, i, rfl⟩
  · rw [cellOf_single]
    show ((List.replicate size 0)[0]?.getD 0 ≠ 0 ∧ _) ↔ _
    rw [getElem?_replicate_zero]
    simp
  · rw [cellOf_single]
    show ((bitEnd + (if i ≠ .no then bitGreedy else 0) + (if g then bitPop else 0)) ≠ 0 ∧
      (bitEnd + (if i ≠ .no then bitGreedy else 0) + (if g then bitPop else 0)) / 2 % 2 = 0) ↔ _
    cases i <;> cases g <;> simp [bitEnd, bitGreedy, bitPop]

theorem buildState_spec (H : EnvOk E ncls pr Q) (used0 : List Nat) (index : Nat) (v : List Nat)
    (es : List Equivset) : ∀ (D : DState), DInv E ncls Q used0 D → D.seen[index]? = some v →
    (∀ e ∈ es, e.indexVector ≠ [] ∧ ∀ x ∈ e.indexVector,
        hitsOf E.tr E.mapping E.heap v x ≠ [] ∧
        e.followpos = follAll E.heap (hitsOf E.tr E.mapping E.heap v x) ∧
        e.greedy = greedyAll E.heap (hitsOf E.tr E.mapping E.heap v x)) →
    es.Pairwise (fun e f => ∀ x ∈ e.indexVector, x ∉ f.indexVector) →
    ∃ D', buildState E index es D = .ok D' ∧ DInv E ncls Q used0 D' ∧
      (∃ ext, D'.seen = D.seen ++ ext) ∧
      (∀ e ∈ es, ∀ x ∈ e.indexVector,
        (slotVal E.tr D'.rows index x = slotVal E.tr D.rows index x ∧ CellIs E pr D'.seen v x 0) ∨
        (slotVal E.tr D'.rows index x ≠ 0 ∧
          CellIs E pr D'.seen v x (slotVal E.tr D'.rows index x))) ∧
      (∀ r c, (5 ≤ c ∨ r < D.rows.length) →
        (∀ e ∈ es, ∀ x ∈ e.indexVector, slot E.tr index x ≠ (r, c)) →
        cellOf D'.rows r c = cellOf D.rows r c) := by
  induction es with
  | nil => intro D hD _ _ _; exact ⟨D, rfl, hD, ⟨[], by simp⟩, by simp, fun _ _ _ _ => rfl⟩
  | cons e es ih =>
    intro D hD hv hes hpw
    have hmem := List.mem_of_getElem? hv
    have hQ := (hD.q v hmem).1
    have hilt := (List.getElem?_eq_some_iff.1 hv).1
    obtain ⟨hne, hx⟩ := hes e (by simp)
    obtain ⟨x0, hx0⟩ := List.exists_mem_of_ne_nil _ hne
    obtain ⟨g1, g2, g3⟩ := hx x0 hx0
    have hval : ∀ x ∈ e.indexVector, Valid E.tr ncls x := fun x h => valid_of_hits H hQ (hx x h).1
    have htgt : ∀ x ∈ e.indexVector, tgt E pr v x = tgt E pr v x0 := fun x h => by
      unfold tgt; rw [← g2, (hx x h).2.1]
    have hpr := H.prune v x0 hQ (hval x0 hx0)
    rw [← g2] at hpr
    have hskip : ∀ x ∈ e.indexVector, Skips E v x ↔ Skips E v x0 := fun x h => by
      unfold Skips; rw [← g3, (hx x h).2.2]
    rw [List.pairwise_cons] at hpw
    -- the slots after `buildState` are those of the first step for indexes of `e`
    have hslot : ∀ x ∈ e.indexVector, ∀ f ∈ es, ∀ y ∈ f.indexVector,
        slot E.tr index y ≠ slot E.tr index x := by
      intro x hxe f hf y hy h
      have hy' : Valid E.tr ncls y :=
        valid_of_hits H hQ ((hes f (List.mem_cons_of_mem _ hf)).2 y hy).1
      have := slot_inj H hy' (hval x hxe) h
      exact hpw.1 f hf x hxe (this ▸ hy)
    have hslotr : ∀ (D1 : DState), D1.rows.length = D1.seen.length + 1 →
        (∃ ext, D1.seen = D.seen ++ ext) → ∀ x,
        5 ≤ (slot E.tr index x).2 ∨ (slot E.tr index x).1 < D1.rows.length := by
      intro D1 h1 ⟨ext, h2⟩ x
      unfold slot
      split
      · right; simp; omega
      · split
        · left; simp [ixEol]
        · left; simp [ixTransitions]
    by_cases ht : tgt E pr v x0 = []
    · -- nothing to go to
      obtain ⟨D', a1, a2, a3, a4, a5⟩ := ih D hD hv
        (fun f hf => hes f (List.mem_cons_of_mem _ hf)) hpw.2
      refine ⟨D', ?_, a2, a3, ?_, ?_⟩
      · rw [buildState, hpr, ht]; exact a1
      · intro f hf x hxf
        rcases List.mem_cons.1 hf with rfl | hf
        · left
          refine ⟨a5 _ _ (hslotr D hD.len ⟨[], by simp⟩ x) fun f hf y hy => hslot x hxf f hf y hy, ?_⟩
          exact .inl ⟨by rw [htgt x hxf, ht], rfl⟩
        · exact a4 f hf x hxf
      · intro r c hrc h
        exact a5 r c hrc fun f hf => h f (List.mem_cons_of_mem _ hf)
    · obtain ⟨j, D1, b1, b2, ⟨ext1, b3⟩, ⟨s, b4, b5⟩, b6, _, _⟩ := closure_spec H used0 D hD
        (tgt E pr v x0) ht (H.next v x0 hQ (hval x0 hx0)) (H.nextOk v x0 hQ (hval x0 hx0))
      have hv1 : D1.seen[index]? = some v := by
        rw [b3, List.getElem?_append_left hilt]; exact hv
      have hilt1 := (List.getElem?_eq_some_iff.1 hv1).1
      have hsz : 0 < E.size := by have := H.size; omega
      have hget := getCell_spec b2.width (r := index + 1) (c := 0) (by rw [b2.len]; omega) hsz
      obtain ⟨en, c1, c2⟩ := b2.ends index v hv1
      obtain ⟨en', c3, c4⟩ := firstEnd_ok v fun n hn => (H.node v hQ n hn).1
      have : en' = en := by rw [c1] at c3; injection c3 with c3; exact c3.symm
      subst this
      rw [c2 0 (by omega)] at hget
      have hlz := lazy_cell en' E.size c4
      by_cases hs : Skips E v x0
      · obtain ⟨D', a1, a2, ⟨ext, a3⟩, a4, a5⟩ := ih D1 b2 hv1
          (fun f hf => hes f (List.mem_cons_of_mem _ hf)) hpw.2
        refine ⟨D', ?_, a2, ⟨ext1 ++ ext, by rw [a3, b3, List.append_assoc]⟩, ?_, ?_⟩
        · obtain ⟨⟨a, b, c, d, f, g, hs1⟩, hs2⟩ := hs
          have hcond := hlz.2 ⟨a, b, c, d, f, g, by rw [c3] at hs1; injection hs1⟩
          rw [buildState, hpr]
          simp only [bind, Except.bind]
          rw [b1]
          simp only
          rw [hget]
          simp only
          rw [if_pos ⟨hcond.1, hcond.2, by rw [g3]; exact hs2⟩]
          exact a1
        · intro f hf x hxf
          rcases List.mem_cons.1 hf with rfl | hf
          · left
            refine ⟨?_, .inr ⟨by rw [htgt x hxf]; exact ht, j, s, ?_, by rw [htgt x hxf]; exact b5,
              .inl ⟨(hskip x hxf).2 hs, rfl⟩⟩⟩
            rotate_left
            · rw [a3, List.getElem?_append_left (List.getElem?_eq_some_iff.1 b4).1]
              exact b4
            unfold slotVal
            rw [a5 _ _ (hslotr D1 b2.len ⟨ext1, b3⟩ x) fun f hf y hy => hslot x hxf f hf y hy]
            exact b6 _ _ (hslotr D hD.len ⟨[], by simp⟩ x)
          · rcases a4 f hf x hxf with ⟨h1, h2⟩ | h1
            · refine .inl ⟨?_, h2⟩
              rw [h1]
              exact b6 _ _ (hslotr D hD.len ⟨[], by simp⟩ x)
            · exact .inr h1
        · intro r c hrc h
          rw [a5 r c ?_ fun f hf => h f (List.mem_cons_of_mem _ hf), b6 r c hrc]
          rcases hrc with h | h
          · exact .inl h
          · right; rw [hD.len] at h; rw [b2.len, b3, List.length_append]; omega
      · obtain ⟨D2, d1, d2, d3, d4, d5⟩ := setTransitions_spec H used0 index (j + 1) (by omega)
          e.indexVector D1 b2 hilt1 hval
        obtain ⟨D', a1, a2, ⟨ext, a3⟩, a4, a5⟩ := ih D2 d2 (by rw [d3]; exact hv1)
          (fun f hf => hes f (List.mem_cons_of_mem _ hf)) hpw.2
        refine ⟨D', ?_, a2, ⟨ext1 ++ ext, by rw [a3, d3, b3, List.append_assoc]⟩, ?_, ?_⟩
        · rw [buildState, hpr]
          simp only [bind, Except.bind]
          rw [b1]
          simp only
          rw [hget]
          simp only
          rw [if_neg, d1]
          · exact a1
          · rintro ⟨h1, h2, h3⟩
            obtain ⟨a, b, c, d, f, g, h4⟩ := hlz.1 ⟨h1, h2⟩
            exact hs ⟨⟨a, b, c, d, f, g, by rw [c3, h4]⟩, by rw [← g3]; exact h3⟩
        · intro f hf x hxf
          rcases List.mem_cons.1 hf with rfl | hf
          · right
            have hv' : slotVal E.tr D'.rows index x = j + 1 := by
              unfold slotVal
              rw [a5 _ _ (hslotr D2 d2.len ⟨ext1, by rw [d3, b3]⟩ x) fun f hf y hy =>
                hslot x hxf f hf y hy]
              exact d4 x hxf
            rw [hv']
            refine ⟨by omega, .inr ⟨by rw [htgt x hxf]; exact ht, j, s, ?_, by rw [htgt x hxf]; exact b5,
              .inr ⟨fun h => hs ((hskip x hxf).1 h), rfl⟩⟩⟩
            rw [a3, d3, List.getElem?_append_left (List.getElem?_eq_some_iff.1 b4).1]
            exact b4
          · rcases a4 f hf x hxf with ⟨h1, h2⟩ | h1
            · refine .inl ⟨?_, h2⟩
              rw [h1]
              unfold slotVal
              rw [d5 (slot E.tr index x).1 (slot E.tr index x).2 fun y hy h => hslot y hy f hf x hxf h.symm]
              exact b6 _ _ (hslotr D hD.len ⟨[], by simp⟩ x)
            · exact .inr h1
        · intro r c hrc h
          rw [a5 r c ?_ fun f hf => h f (List.mem_cons_of_mem _ hf),
            d5 r c fun y hy => h e (by simp) y hy, b6 r c hrc]
          rcases hrc with h | h
          · exact .inl h
          · right; rw [hD.len] at h; rw [d2.len, d3, b3, List.length_append]; omega

/-- What cell (0, 0), the start state at the beginning of a line, is once the
first `i` states have been worked on. -/
def BolIs (E : DfaEnv) (pr : List Nat → List Nat) (seen : List (List Nat)) (i b : Nat) : Prop :=
  (b = 0 ∧ ∀ k v, k < i → seen[k]? = some v → CellIs E pr seen v E.tr.bolToken 0) ∨
  (b ≠ 0 ∧ ∃ k v, k < i ∧ seen[k]? = some v ∧ CellIs E pr seen v E.tr.bolToken b ∧
    ∀ k' v', k < k' → k' < i → seen[k']? = some v' → CellIs E pr seen v' E.tr.bolToken 0)

/-- State of the table once the first `i` states have been worked on. -/
structure Done (E : DfaEnv) (ncls : Nat) (pr : List Nat → List Nat) (D : DState) (i : Nat) : Prop where
  cells : ∀ k v x, k < i → D.seen[k]? = some v → Valid E.tr ncls x → x ≠ E.tr.bolToken →
    CellIs E pr D.seen v x (slotVal E.tr D.rows k x)
  fresh : ∀ k x, i ≤ k → x ≠ E.tr.bolToken → slotVal E.tr D.rows k x = 0
  bol : BolIs E pr D.seen i (cellOf D.rows 0 0)

theorem CellIs.zero_of_nohits (H : EnvOk E ncls pr Q) {seen : List (List Nat)} {v : List Nat} {x : Nat}
    (h : hitsOf E.tr E.mapping E.heap v x = []) : CellIs E pr seen v x 0 :=
  .inl ⟨by unfold tgt; rw [h]; exact H.prnil, rfl⟩

theorem buildStates_spec (H : EnvOk E ncls pr Q) (used0 : List Nat) (fuel : Nat) :
    ∀ (i : Nat) (D : DState), DInv E ncls Q used0 D → Done E ncls pr D i → i ≤ D.seen.length →
    2 ^ E.heap.length < fuel + i →
    ∃ D', buildStates E fuel i D = .ok D' ∧ DInv E ncls Q used0 D' ∧
      Done E ncls pr D' D'.seen.length ∧ ∃ ext, D'.seen = D.seen ++ ext := by
  induction fuel with
  | zero =>
    intro i D hD hdone hi hf
    have := subsets_le E.heap.length D.seen (fun s hs q hq => (H.node s (hD.q s hs).1 q hq).2) hD.dist
    omega
  | succ fuel ih =>
    intro i D hD hdone hi hf
    rw [buildStates]
    cases hv : D.seen[i]? with
    | none =>
      have : i = D.seen.length := by have := List.getElem?_eq_none_iff.1 hv; omega
      subst this
      exact ⟨D, rfl, hD, hdone, [], by simp⟩
    | some v =>
      have hilt := (List.getElem?_eq_some_iff.1 hv).1
      have hQ := (hD.q v (List.mem_of_getElem? hv)).1
      obtain ⟨es, e1, e2, e3, e4⟩ := buildEquivList_spec E.tr E.mapping ncls E.heap v
        fun n hn => (H.node v hQ n hn).1
      obtain ⟨D1, b1, b2, ⟨ext, b3⟩, b4, b5⟩ := buildState_spec H used0 i v es D hD hv
        (fun e he => ⟨(e2 e he).1, (e2 e he).2.2⟩) e3
      have hvalid : ∀ e ∈ es, ∀ x ∈ e.indexVector, Valid E.tr ncls x := fun e he x hx =>
        valid_of_hits H hQ ((e2 e he).2.2 x hx).1
      have hother : ∀ k x, k ≠ i → x ≠ E.tr.bolToken →
          slotVal E.tr D1.rows k x = slotVal E.tr D.rows k x := by
        intro k x hk hx
        refine b5 _ _ ?_ ?_
        · left; unfold slot; rw [if_neg hx]; split <;> simp [ixEol, ixTransitions]
        · intro e _ y _ h
          exact hk (slot_inj_index hx h.symm)
      have hdone1 : Done E ncls pr D1 (i + 1) := by
        refine ⟨?_, ?_, ?_⟩
        · intro k w x hk hw hx hxb
          by_cases hki : k = i
          · subst hki
            have : w = v := by
              rw [b3, List.getElem?_append_left hilt, hv] at hw; injection hw with hw; exact hw.symm
            subst this
            have h0 := hdone.fresh k x (Nat.le_refl _) hxb
            by_cases hh : hitsOf E.tr E.mapping E.heap w x = []
            · have : slotVal E.tr D1.rows k x = slotVal E.tr D.rows k x := by
                refine b5 _ _ ?_ ?_
                · left; unfold slot; rw [if_neg hxb]; split <;> simp [ixEol, ixTransitions]
                · intro e he y hy h
                  have := slot_inj H (hvalid e he y hy) hx h
                  subst this
                  exact ((e2 e he).2.2 y hy).1 hh
              rw [this, h0]
              exact CellIs.zero_of_nohits H hh
            · obtain ⟨e, he, hxe⟩ := e4 x hh
              rcases b4 e he x hxe with ⟨h1, h2⟩ | ⟨_, h2⟩
              · rw [h1, h0]; exact h2
              · exact h2
          · have hlt : k < D.seen.length := by omega
            rw [b3, List.getElem?_append_left hlt] at hw
            rw [hother k x hki hxb, b3]
            exact (hdone.cells k w x (by omega) hw hx hxb).mono
        · intro k x hk hx
          rw [hother k x (by omega) hx]
          exact hdone.fresh k x (by omega) hx
        · have hold : ∀ k w b, k < i → D1.seen[k]? = some w →
              (D.seen[k]? = some w → CellIs E pr D.seen w E.tr.bolToken b) →
              CellIs E pr D1.seen w E.tr.bolToken b := by
            intro k w b hk hw h
            have hlt : k < D.seen.length := by omega
            rw [b3, List.getElem?_append_left hlt] at hw
            rw [b3]
            exact (h hw).mono
          have hv1 : D1.seen[i]? = some v := by rw [b3, List.getElem?_append_left hilt]; exact hv
          have hcase : (cellOf D1.rows 0 0 = cellOf D.rows 0 0 ∧
              CellIs E pr D1.seen v E.tr.bolToken 0) ∨ (cellOf D1.rows 0 0 ≠ 0 ∧
              CellIs E pr D1.seen v E.tr.bolToken (cellOf D1.rows 0 0)) := by
            have hs : slot E.tr i E.tr.bolToken = (0, 0) := by simp [slot]
            by_cases hh : hitsOf E.tr E.mapping E.heap v E.tr.bolToken = []
            · left
              refine ⟨b5 0 0 (.inr (by rw [hD.len]; omega)) ?_, CellIs.zero_of_nohits H hh⟩
              intro e he y hy h
              have := slot_inj H (hvalid e he y hy) (.inr (.inl rfl)) (h.trans hs.symm)
              subst this
              exact ((e2 e he).2.2 _ hy).1 hh
            · obtain ⟨e, he, hxe⟩ := e4 _ hh
              have := b4 e he _ hxe
              unfold slotVal at this
              rw [hs] at this
              exact this
          rcases hcase with ⟨h1, h2⟩ | ⟨h1, h2⟩
          · rw [h1]
            rcases hdone.bol with ⟨h3, h4⟩ | ⟨h3, k, w, h4, h5, h6, h7⟩
            · left
              refine ⟨h3, fun k w hk hw => ?_⟩
              by_cases hki : k = i
              · subst hki; rw [hv1] at hw; injection hw with hw; subst hw; exact h2
              · exact hold k w 0 (by omega) hw fun hw => h4 k w (by omega) hw
            · right
              have hlt : k < D.seen.length := by omega
              refine ⟨h3, k, w, by omega, by rw [b3, List.getElem?_append_left hlt]; exact h5,
                by rw [b3]; exact h6.mono, fun k' w' hk' hk'i hw' => ?_⟩
              by_cases hki : k' = i
              · subst hki; rw [hv1] at hw'; injection hw' with hw'; subst hw'; exact h2
              · exact hold k' w' 0 (by omega) hw' fun hw' => h7 k' w' hk' (by omega) hw'
          · right
            exact ⟨h1, i, v, by omega, hv1, h2, fun k' _ _ _ => by omega⟩
      obtain ⟨D', c1, c2, c3, ext', c4⟩ := ih (i + 1) D1 b2 hdone1
        (by rw [b3, List.length_append]; omega) (by omega)
      refine ⟨D', ?_, c2, c3, ext ++ ext', by rw [c4, b3, List.append_assoc]⟩
      simp only [e1, bind, Except.bind, b1]
      exact c1

/-- The table `build_dfa` has made when `fix_clashes` starts. -/
theorem buildStates_init (H : EnvOk E ncls pr Q) (used0 : List Nat) (fp : List Nat) (hne : fp ≠ [])
    (hq : Q (dedup [] fp)) (hok : ∀ n ∈ fp, NodeOk E.tr E.mapping ncls E.heap n) :
    ∃ D0 D, closure E ⟨[List.replicate E.size 0], [], [], used0, []⟩ fp = .ok (some 1, D0) ∧
      buildStates E (2 ^ E.heap.length + 1) 0 D0 = .ok D ∧ DInv E ncls Q used0 D ∧
      Done E ncls pr D D.seen.length ∧ D.seen[0]? = some (dedup [] fp) := by
  have hinit : DInv E ncls Q used0 ⟨[List.replicate E.size 0], [], [], used0, []⟩ := by
    have hz : ∀ r c, cellOf [List.replicate E.size 0] r c = 0 := by
      intro r c
      cases r with
      | zero => exact getElem?_replicate_zero _ _
      | succ r => exact cellOf_out (by simp) _
    refine ⟨rfl, by simp, rfl, by simp, by simp, by simp, by simp, ?_, ?_, by simp⟩
    · intro k c _; exact hz k c
    · intro r; simp [hz]
  obtain ⟨j, D0, a1, a2, ⟨ext, a3⟩, a4, a5, a6, _⟩ := closure_spec H used0 _ hinit fp hne hq hok
  have hD0 : j = 0 ∧ D0.seen = [dedup [] fp] := by
    cases fp with
    | nil => exact absurd rfl hne
    | cons f fs =>
    obtain ⟨e, he, _⟩ := firstEnd_ok (f :: fs) hok
    unfold closure at a1
    simp only [he, bind, Except.bind, findSeen] at a1
    injection a1 with a1
    have b1 := congrArg Prod.fst a1
    have b2 := congrArg (fun p => p.2.seen) a1
    simp at b1 b2
    exact ⟨b1, b2.symm⟩
  obtain ⟨rfl, hseen⟩ := hD0
  have hz : ∀ r c, (r = 0 ∨ 5 ≤ c) → cellOf D0.rows r c = 0 := by
    intro r c hrc
    rw [a5 r c (by rcases hrc with rfl | h
                   · right; simp
                   · exact .inl h)]
    simp only
    cases r with
    | zero => exact getElem?_replicate_zero _ _
    | succ r => exact cellOf_out (by simp) _
  have hdone : Done E ncls pr D0 0 := by
    refine ⟨fun k _ _ hk => by omega, ?_, .inl ⟨hz 0 0 (.inl rfl), fun k _ hk => by omega⟩⟩
    intro k x _ hx
    unfold slotVal
    refine hz _ _ (.inr ?_)
    unfold slot; rw [if_neg hx]; split <;> simp [ixEol, ixTransitions]
  obtain ⟨D, b1, b2, b3, ext', b4⟩ := buildStates_spec H used0 (2 ^ E.heap.length + 1) 0 D0 a2 hdone
    (Nat.zero_le _) (by omega)
  exact ⟨D0, D, a1, b1, b2, b3, by rw [b4, hseen]; rfl⟩

end
end Lexertl
