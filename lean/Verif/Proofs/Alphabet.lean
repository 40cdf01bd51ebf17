import Verif.Proofs.Partition

/-
`partition_charsets`, `build_set_mapping` and `fill_lookup`: the alphabet
classes of a charset map.
-/
namespace Lexertl
open Spec

theorem mapInsert_spec (index : Nat) (is : List Nat) (m : List (List Nat))
    (h : ∀ i ∈ is, i < m.length) (hp : ∀ s ∈ m, s.Pairwise (· < ·)) :
    ∃ m', mapInsert index is m = some m' ∧ m'.length = m.length ∧
      (∀ s ∈ m', s.Pairwise (· < ·)) ∧
      ∀ (k : Nat) (x : Nat), x ∈ m'[k]?.getD [] ↔
        x ∈ m[k]?.getD [] ∨ (k ∈ is ∧ x = index) := by
  induction is generalizing m with
  | nil => exact ⟨m, rfl, rfl, hp, by simp⟩
  | cons i is ih =>
    have hi := h i (by simp)
    obtain ⟨m', h1, h2, h3, h4⟩ := ih (m.modify i (setInsert index))
      (by intro j hj; rw [List.length_modify]; exact h j (by simp [hj]))
      (by
        intro s hs
        obtain ⟨k, hk, rfl⟩ := List.getElem_of_mem hs
        rw [List.getElem_modify]
        rw [List.length_modify] at hk
        split
        · exact pairwise_setInsert _ _ (hp _ (List.getElem_mem hk))
        · exact hp _ (List.getElem_mem hk))
    refine ⟨m', ?_, by rw [h2, List.length_modify], h3, ?_⟩
    · rw [mapInsert, if_pos hi, h1]
    · intro k x
      rw [h4, List.getElem?_modify]
      by_cases hk : i = k
      · subst hk
        have : m[i]? = some m[i] := List.getElem?_eq_getElem hi
        rw [this]
        simp [mem_setInsert]
        grind
      · have : k ∈ i :: is ↔ k ∈ is := by
          rw [List.mem_cons]
          exact ⟨fun h => h.elim (fun h => absurd h.symm hk) id, .inr⟩
        rw [this]
        simp [hk]

theorem buildSetMapping_spec (cs : List Charset) (index : Nat) (m : List (List Nat))
    (h : ∀ c ∈ cs, ∀ i ∈ c.indexSet, i < m.length) (hp : ∀ s ∈ m, s.Pairwise (· < ·)) :
    ∃ m', buildSetMapping index cs m = some m' ∧ m'.length = m.length ∧
      (∀ s ∈ m', s.Pairwise (· < ·)) ∧
      ∀ (k : Nat) (x : Nat), x ∈ m'[k]?.getD [] ↔
        x ∈ m[k]?.getD [] ∨ ∃ j c, cs[j]? = some c ∧ k ∈ c.indexSet ∧ x = index + j := by
  induction cs generalizing index m with
  | nil => exact ⟨m, rfl, rfl, hp, by simp⟩
  | cons c cs ih =>
    obtain ⟨m1, a1, a2, a3, a4⟩ := mapInsert_spec index c.indexSet m (h c (by simp)) hp
    obtain ⟨m2, b1, b2, b3, b4⟩ := ih (index + 1) m1
      (by intro d hd i hi; rw [a2]; exact h d (by simp [hd]) i hi) a3
    refine ⟨m2, ?_, by rw [b2, a2], b3, ?_⟩
    · rw [buildSetMapping, a1]; exact b1
    · intro k x
      rw [b4, a4]
      constructor
      · rintro ((hx | ⟨hk, rfl⟩) | ⟨j, d, hj, hk, rfl⟩)
        · exact .inl hx
        · exact .inr ⟨0, c, rfl, hk, by simp⟩
        · exact .inr ⟨j + 1, d, by simpa using hj, hk, by omega⟩
      · rintro (hx | ⟨j, d, hj, hk, rfl⟩)
        · exact .inl (.inl hx)
        · cases j with
          | zero =>
            simp at hj; subst hj
            exact .inl (.inr ⟨hk, by simp⟩)
          | succ j => exact .inr ⟨j, d, by simpa using hj, hk, by omega⟩

theorem fillLookup_spec (index : Nat) (t : Token) (lk : List Nat) (ht : ∀ r ∈ t, r.1 ≤ r.2)
    (hw : ∀ r ∈ t, r.2 < lk.length) :
    ∃ lk', fillLookup index t lk = some lk' ∧ lk'.length = lk.length ∧
      ∀ c, lk'[c]? = (lk[c]?).map fun v => if Mem c t then index + ixTransitions else v := by
  suffices H : ∀ (acc : List Nat), acc.length = lk.length →
      ∃ lk', t.foldl (fun acc r => acc.bind fun lk =>
          if r.2 < lk.length then some (fillRange (index + ixTransitions) r lk) else none)
          (some acc) = some lk' ∧ lk'.length = lk.length ∧
        ∀ c, lk'[c]? = (acc[c]?).map fun v => if Mem c t then index + ixTransitions else v from
    H lk rfl
  induction t with
  | nil => intro acc h; exact ⟨acc, rfl, h, by simp [Token.mem_nil]⟩
  | cons r t ih =>
    intro acc hacc
    have hr := hw r (by simp)
    have hlen : (fillRange (index + ixTransitions) r acc).length = lk.length := by
      simp [fillRange, hacc]
    obtain ⟨lk', h1, h2, h3⟩ := ih (fun r h => ht r (by simp [h])) (fun r h => hw r (by simp [h]))
      _ hlen
    refine ⟨lk', ?_, h2, ?_⟩
    · rw [List.foldl_cons]
      rw [show ((some acc).bind fun lk => if r.2 < lk.length then
        some (fillRange (index + ixTransitions) r lk) else none) =
        some (fillRange (index + ixTransitions) r acc) from by
          simp [hacc, hr]]
      exact h1
    · intro c
      rw [h3, fillRange, List.getElem?_mapIdx]
      cases acc[c]? with
      | none => simp
      | some v =>
        simp only [Option.map_some, Token.mem_cons]
        congr 1
        by_cases h1 : Mem c t <;> by_cases h2 : r.1 ≤ c ∧ c ≤ r.2 <;> simp [h1, h2]

theorem buildLookup_spec (cs : List Charset) (index : Nat) (lk : List Nat)
    (hn : ∀ c ∈ cs, Normal c.token) (hw : ∀ c ∈ cs, ∀ r ∈ c.token, r.2 < lk.length)
    (hd : ∀ (i j : Nat) (c d : Charset), cs[i]? = some c → cs[j]? = some d →
      ∀ x, Mem x c.token → Mem x d.token → i = j) :
    ∃ lk', buildLookup index cs lk = some lk' ∧ lk'.length = lk.length ∧
      (∀ (x j : Nat) (c : Charset), x < lk.length → cs[j]? = some c → Mem x c.token →
        lk'[x]? = some (index + j + ixTransitions)) ∧
      (∀ x, (∀ c ∈ cs, ¬ Mem x c.token) → lk'[x]? = lk[x]?) := by
  induction cs generalizing index lk with
  | nil => exact ⟨lk, rfl, rfl, by simp, by simp⟩
  | cons c cs ih =>
    obtain ⟨l1, a1, a2, a3⟩ := fillLookup_spec index c.token lk (hn c (by simp)).1
      (hw c (by simp))
    obtain ⟨l2, b1, b2, b3, b4⟩ := ih (index + 1) l1 (fun d hd => hn d (by simp [hd]))
      (by intro d hd; rw [a2]; exact hw d (by simp [hd]))
      (by
        intro i j c' d' hi hj x hx hy
        have := hd (i + 1) (j + 1) c' d' (by simpa using hi) (by simpa using hj) x hx hy
        omega)
    refine ⟨l2, ?_, by rw [b2, a2], ?_, ?_⟩
    · rw [buildLookup, a1]; exact b1
    · intro x j d hx hj hm
      cases j with
      | zero =>
        simp at hj; subst hj
        rw [b4 x, a3, List.getElem?_eq_getElem hx]
        · simp [hm]
        · intro d hd' hmd
          obtain ⟨k, hk, hk'⟩ := List.getElem_of_mem hd'
          have := hd 0 (k + 1) c d rfl (by simp [List.getElem?_eq_getElem hk, hk']) x hm hmd
          omega
      | succ j =>
        rw [b3 x j d (by omega) (by simpa using hj) hm]
        congr 1; omega
    · intro x hx
      rw [b4 x (fun d hd => hx d (by simp [hd])), a3]
      simp [hx c (by simp)]

theorem foldl_or {ι : Type} (f : ι → Nat → Prop) (ps : List ι) (p : Nat → Prop) (i : Nat) :
    (ps.map f).foldl (fun p q i => p i ∨ q i) p i ↔ p i ∨ ∃ e ∈ ps, f e i := by
  induction ps generalizing p with
  | nil => simp
  | cons a ps ih => simp only [List.map_cons, List.foldl_cons, ih, List.mem_cons]; grind

theorem filter_le_one_inj {α : Type} (p : α → Bool) (L : List α) (h : (L.filter p).length ≤ 1)
    (i j : Nat) (a b : α) (hi : L[i]? = some a) (hj : L[j]? = some b) (pa : p a = true)
    (pb : p b = true) : i = j := by
  induction L generalizing i j with
  | nil => simp at hi
  | cons x L ih =>
    have key : ∀ (k : Nat) (c : α), L[k]? = some c → p c = true → p x = true → False := by
      intro k c hk pc px
      rw [List.filter_cons_of_pos px] at h
      have : c ∈ L.filter p := List.mem_filter.2 ⟨List.mem_of_getElem? hk, pc⟩
      cases hh : L.filter p with
      | nil => rw [hh] at this; cases this
      | cons y ys => rw [hh] at h; simp at h
    have h' : (L.filter p).length ≤ 1 := by
      rw [List.filter_cons] at h; split at h
      · rw [List.length_cons] at h; omega
      · exact h
    cases i with
    | zero =>
      cases j with
      | zero => rfl
      | succ j => simp at hi hj; subst hi; exact (key j b hj pb pa).elim
    | succ i =>
      cases j with
      | zero => simp at hi hj; subst hj; exact (key i a hi pa pb).elim
      | succ j => rw [ih h' i j (by simpa using hi) (by simpa using hj)]

/-- The classes computed from a charset map. -/
theorem partition_spec (m : CharsetMap) (hm : ∀ e ∈ m, Normal e.1 ∧ e.1 ≠ []) :
    ∃ classes, partitionCharsets m = some classes ∧
      (∀ c ∈ classes, Normal c.token ∧ c.token ≠ []) ∧
      (∀ (i j : Nat) (c d : Charset), classes[i]? = some c → classes[j]? = some d →
        ∀ x, Mem x c.token → Mem x d.token → i = j) ∧
      (∀ x, (∃ c ∈ classes, Mem x c.token) ↔ ∃ e ∈ m, Mem x e.1) ∧
      (∀ c ∈ classes, ∀ x, Mem x c.token → ∀ i, i ∈ c.indexSet ↔ ∃ e ∈ m, Mem x e.1 ∧ e.2 = i) := by
  obtain ⟨out, h1, h2, h3⟩ := splitAll_spec Charset.laws (fillRhsCharsets m) (by
    intro a ha
    simp only [fillRhsCharsets, List.mem_map] at ha
    obtain ⟨e, he, rfl⟩ := ha
    refine ⟨⟨(hm e he).1, fun h => absurd h (hm e he).2⟩, ?_⟩
    simp [Charset.isEmpty])
  have hR : ∀ x, hits Charset.dom Charset.pay x (fillRhsCharsets m) =
      (m.filter fun e => decide (Mem x e.1)).map fun e i => i = e.2 := by
    intro x
    simp only [hits, fillRhsCharsets, List.filter_map, List.map_map]
    apply List.map_congr_left
    intro e _
    funext i
    simp [Charset.pay]
  have hlen : ∀ x, (out.filter fun a => Charset.dom a x).length ≤ 1 := by
    intro x
    have := h3 x
    have h4 : (hits Charset.dom Charset.pay x out).length ≤ 1 := by
      rw [this]; unfold foldPay; split <;> simp
    simpa [hits] using h4
  refine ⟨out, h1, ?_, ?_, ?_, ?_⟩
  · intro c hc
    refine ⟨(h2 c hc).1.1, fun h => ?_⟩
    have := (h2 c hc).2
    simp [Charset.isEmpty, h, (h2 c hc).1.2 h] at this
  · intro i j c d hi hj x hx hy
    exact filter_le_one_inj _ out (hlen x) i j c d hi hj (by simpa [Charset.dom] using hx)
      (by simpa [Charset.dom] using hy)
  · intro x
    have hx := h3 x
    rw [hR] at hx
    constructor
    · rintro ⟨c, hc, hcx⟩
      have : hits Charset.dom Charset.pay x out ≠ [] := by
        simp only [hits, ne_eq, List.map_eq_nil_iff, List.filter_eq_nil_iff, Charset.dom]
        intro h; exact h c hc (by simpa using hcx)
      rw [hx] at this
      cases hf : m.filter fun e => decide (Mem x e.1) with
      | nil => rw [hf] at this; simp [foldPay] at this
      | cons e es =>
        have : e ∈ m.filter fun e => decide (Mem x e.1) := by rw [hf]; simp
        rw [List.mem_filter] at this
        exact ⟨e, this.1, by simpa using this.2⟩
    · rintro ⟨e, he, hex⟩
      have : e ∈ m.filter fun e => decide (Mem x e.1) := List.mem_filter.2 ⟨he, by simpa using hex⟩
      cases hf : m.filter fun e => decide (Mem x e.1) with
      | nil => rw [hf] at this; cases this
      | cons e' es =>
        rw [hf] at hx
        have hne : hits Charset.dom Charset.pay x out ≠ [] := by rw [hx]; simp [foldPay]
        simp only [hits, ne_eq, List.map_eq_nil_iff, List.filter_eq_nil_iff, Charset.dom] at hne
        exact Classical.byContradiction fun hn => hne fun c hc h => hn ⟨c, hc, by simpa using h⟩
  · intro c hc x hx i
    have hcf : c ∈ out.filter fun a => Charset.dom a x :=
      List.mem_filter.2 ⟨hc, by simpa [Charset.dom] using hx⟩
    have hsing : out.filter (fun a => Charset.dom a x) = [c] := by
      have hl := hlen x
      cases hf : out.filter fun a => Charset.dom a x with
      | nil => rw [hf] at hcf; cases hcf
      | cons y ys =>
        rw [hf] at hl hcf
        have : ys = [] := by cases ys with | nil => rfl | cons _ _ => simp at hl
        subst this
        simp at hcf; rw [hcf]
    have hh := h3 x
    rw [hR, hits, hsing] at hh
    simp only [List.map_cons, List.map_nil] at hh
    have hmemf : ∀ e, e ∈ m.filter (fun e => decide (Mem x e.1)) ↔ e ∈ m ∧ Mem x e.1 := by
      intro e; simp [List.mem_filter]
    cases hf : m.filter fun e => decide (Mem x e.1) with
    | nil => rw [hf] at hh; simp [foldPay] at hh
    | cons e es =>
      rw [hf] at hh hmemf
      simp only [List.map_cons, foldPay, List.cons.injEq, and_true] at hh
      have := congrFun hh i
      rw [Charset.pay] at this
      rw [this, foldl_or (fun (e : Token × Nat) i => i = e.2)]
      constructor
      · rintro (h | ⟨e', he', h⟩)
        · obtain ⟨a, b⟩ := (hmemf e).1 (by simp); exact ⟨e, a, b, h.symm⟩
        · obtain ⟨a, b⟩ := (hmemf e').1 (by simp [he']); exact ⟨e', a, b, h.symm⟩
      · rintro ⟨e', h1, h2, h3⟩
        have := (hmemf e').2 ⟨h1, h2⟩
        rcases List.mem_cons.1 this with rfl | h
        · exact .inl h3.symm
        · exact .inr ⟨e', h, h3.symm⟩

end Lexertl
