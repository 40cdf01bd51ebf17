import Verif.Proofs.Alphabet

/-
Property C08: the alphabet classes of the generator (`generator.hpp`
`partition_charsets`, `build_set_mapping`, `fill_lookup`).
-/
namespace Lexertl.Props
open Spec

/-- C08: for every numbered collection of non-empty charsets over one byte, the
generator finds classes that

* are non-empty and pairwise disjoint,
* cover exactly the characters of the charsets,
* make up each charset exactly: a character is in the charset iff one of the
  classes assigned to the charset's number contains it;

and a table of 256 entries in which each character has the column (7 + class
number) of the class containing it, or the dead column 6 if there is none. -/
theorem C08_alphabet_partition_exact (m : CharsetMap)
    (hset : ∀ e ∈ m, Normal e.1 ∧ e.1 ≠ [] ∧ Within 255 e.1)
    (hid : ∀ e ∈ m, e.2 < m.length) (hinj : ∀ e ∈ m, ∀ e' ∈ m, e.2 = e'.2 → e = e') :
    ∃ classes mapping table,
      partitionCharsets m = some classes ∧
      buildSetMapping 0 classes (List.replicate m.length []) = some mapping ∧
      buildLookup 0 classes (List.replicate 256 6) = some table ∧
      (∀ c ∈ classes, ∃ x, Mem x c.token) ∧
      (∀ i j (hi : i < classes.length) (hj : j < classes.length) x,
        Mem x classes[i].token → Mem x classes[j].token → i = j) ∧
      (∀ x, (∃ c ∈ classes, Mem x c.token) ↔ ∃ e ∈ m, Mem x e.1) ∧
      (∀ e ∈ m, ∃ s, mapping[e.2]? = some s ∧ s.Pairwise (· < ·) ∧ (∀ i ∈ s, i < classes.length) ∧
        ∀ x, Mem x e.1 ↔ ∃ i, ∃ hi : i < classes.length, i ∈ s ∧ Mem x classes[i].token) ∧
      table.length = 256 ∧
      (∀ x i, x < 256 → (table[x]? = some (7 + i) ↔
        ∃ hi : i < classes.length, Mem x classes[i].token)) ∧
      (∀ x, x < 256 → (table[x]? = some 6 ↔ ∀ e ∈ m, ¬ Mem x e.1)) := by
  obtain ⟨classes, h1, h2, h3, h4, h5⟩ := partition_spec m fun e he => ⟨(hset e he).1, (hset e he).2.1⟩
  have hidx : ∀ c ∈ classes, ∃ x, Mem x c.token := by
    intro c hc
    exact Classical.byContradiction fun h =>
      (h2 c hc).2 ((Charset.token_nil_iff _ (h2 c hc).1).2 fun x hx => h ⟨x, hx⟩)
  obtain ⟨mapping, b1, b2, b3, b4⟩ := buildSetMapping_spec classes 0 (List.replicate m.length [])
    (by
      intro c hc i hi
      obtain ⟨x, hx⟩ := hidx c hc
      obtain ⟨e, he, _, rfl⟩ := (h5 c hc x hx i).1 hi
      simpa using hid e he)
    (by intro s hs; rw [List.mem_replicate] at hs; simp [hs.2])
  obtain ⟨table, t1, t2, t3, t4⟩ := buildLookup_spec classes 0 (List.replicate 256 6)
    (fun c hc => (h2 c hc).1)
    (by
      intro c hc r hr
      have hr' := (h2 c hc).1.1 r hr
      obtain ⟨e, he, hx⟩ := (h4 r.2).1 ⟨c, hc, r, hr, hr', Nat.le_refl _⟩
      obtain ⟨q, hq, _, h⟩ := hx
      have := (hset e he).2.2 q hq
      rw [List.length_replicate]; omega) h3
  have hlen : table.length = 256 := by rw [t2, List.length_replicate]
  have hmem : ∀ x i (hi : i < classes.length), x < 256 → Mem x classes[i].token →
      table[x]? = some (7 + i) := by
    intro x i hi hx hm
    rw [t3 x i _ (by rw [List.length_replicate]; exact hx)
      (List.getElem?_eq_getElem hi) hm]
    simp [ixTransitions, Nat.add_comm]
  have hdead : ∀ x, x < 256 → (∀ c ∈ classes, ¬ Mem x c.token) → table[x]? = some 6 := by
    intro x hx h
    rw [t4 x h, List.getElem?_replicate, if_pos hx]
  refine ⟨classes, mapping, table, h1, b1, t1, hidx, ?_, h4, ?_, hlen, ?_, ?_⟩
  · intro i j hi hj x hx hy
    exact h3 i j _ _ (List.getElem?_eq_getElem hi) (List.getElem?_eq_getElem hj) x hx hy
  · intro e he
    have hlt : e.2 < mapping.length := by rw [b2]; simpa using hid e he
    have hb : ∀ x, x ∈ mapping[e.2] ↔ ∃ j c, classes[j]? = some c ∧ e.2 ∈ c.indexSet ∧ x = j := by
      intro x
      have := b4 e.2 x
      rw [List.getElem?_eq_getElem hlt, List.getElem?_replicate] at this
      simpa [hid e he] using this
    refine ⟨mapping[e.2], List.getElem?_eq_getElem hlt, b3 _ (List.getElem_mem hlt), ?_, ?_⟩
    · intro i hi
      obtain ⟨j, c, hj, _, rfl⟩ := (hb i).1 hi
      exact (List.getElem?_eq_some_iff.1 hj).1
    · intro x
      constructor
      · intro hx
        obtain ⟨c, hc, hcx⟩ := (h4 x).2 ⟨e, he, hx⟩
        obtain ⟨i, hi, rfl⟩ := List.getElem_of_mem hc
        refine ⟨i, hi, (hb i).2 ⟨i, _, List.getElem?_eq_getElem hi, ?_, rfl⟩, hcx⟩
        exact (h5 _ hc x hcx e.2).2 ⟨e, he, hx, rfl⟩
      · rintro ⟨i, hi, his, hx⟩
        obtain ⟨j, c, hj, hk, rfl⟩ := (hb i).1 his
        rw [List.getElem?_eq_getElem hi] at hj
        cases hj
        obtain ⟨e', he', hx', hid'⟩ := (h5 _ (List.getElem_mem hi) x hx e.2).1 hk
        rw [hinj e' he' e he hid'] at hx'
        exact hx'
  · intro x i hx
    constructor
    · intro h
      by_cases hc : ∃ c ∈ classes, Mem x c.token
      · obtain ⟨c, hc, hcx⟩ := hc
        obtain ⟨j, hj, rfl⟩ := List.getElem_of_mem hc
        rw [hmem x j hj hx hcx] at h
        have : j = i := by simpa using h
        subst this
        exact ⟨hj, hcx⟩
      · rw [hdead x hx fun c hc' h => hc ⟨c, hc', h⟩] at h
        simp at h; omega
    · rintro ⟨hi, hm⟩; exact hmem x i hi hx hm
  · intro x hx
    constructor
    · intro h e he hxe
      obtain ⟨c, hc, hcx⟩ := (h4 x).2 ⟨e, he, hxe⟩
      obtain ⟨j, hj, rfl⟩ := List.getElem_of_mem hc
      rw [hmem x j hj hx hcx] at h
      simp at h; omega
    · intro h
      apply hdead x hx
      intro c hc hcx
      obtain ⟨e, he, hxe⟩ := (h4 x).1 ⟨c, hc, hcx⟩
      exact h e he hxe

/-- The hypotheses of C08 are met by three overlapping charsets; four classes
result. -/
example :
    let m : CharsetMap := [([(48, 57), (97, 122)], 0), ([(53, 99)], 2), ([(98, 98)], 1)]
    (∀ e ∈ m, Normal e.1 ∧ e.1 ≠ [] ∧ Within 255 e.1) ∧ (∀ e ∈ m, e.2 < m.length) ∧
    (∀ e ∈ m, ∀ e' ∈ m, e.2 = e'.2 → e = e') ∧
    (partitionCharsets m).map (·.map (·.token)) =
      some [[(48, 52), (100, 122)], [(53, 57), (97, 97), (99, 99)], [(58, 96)],
        [(98, 98)]] := by decide

end Lexertl.Props
