import Verif.Proofs.Unicode

/-
The sets of the Unicode property tables: disjointness, and the sets in normal form.
-/
namespace Lexertl.Uni
open Spec Unicode

/-! ### Merging -/

/-- Merge lists of ranges, smaller ranges first. -/
def merge : Nat → List (Nat × Nat) → List (Nat × Nat) → List (Nat × Nat)
  | 0, xs, ys => xs ++ ys
  | _ + 1, [], ys => ys
  | _ + 1, x :: xs, [] => x :: xs
  | k + 1, x :: xs, y :: ys => if Nat.ble x.1 y.1 then x :: merge k xs (y :: ys) else y :: merge k (x :: xs) ys

theorem merge_perm : ∀ (k : Nat) (xs ys : List (Nat × Nat)), (merge k xs ys).Perm (xs ++ ys)
  | 0, xs, ys => .refl _
  | _ + 1, [], ys => .refl _
  | _ + 1, x :: xs, [] => by simp [merge]
  | k + 1, x :: xs, y :: ys => by
    unfold merge
    split
    · exact (merge_perm k xs (y :: ys)).cons x
    · refine ((merge_perm k (x :: xs) ys).cons y).trans ?_
      exact (List.perm_middle (l₁ := x :: xs)).symm

def mergePairs : List (List (Nat × Nat)) → List (List (Nat × Nat))
  | [] => []
  | [x] => [x]
  | x :: y :: xs => merge 100000 x y :: mergePairs xs

theorem mergePairs_perm : ∀ (ls : List (List (Nat × Nat))), (mergePairs ls).flatten.Perm ls.flatten
  | [] => .refl _
  | [x] => .refl _
  | x :: y :: xs => by
    simp only [mergePairs, List.flatten_cons]
    rw [← List.append_assoc]
    exact (merge_perm _ x y).append (mergePairs_perm xs)

def mergeAll : Nat → List (List (Nat × Nat)) → List (Nat × Nat)
  | 0, ls => ls.flatten
  | k + 1, ls => mergeAll k (mergePairs ls)

theorem mergeAll_perm : ∀ (k : Nat) (ls : List (List (Nat × Nat))), (mergeAll k ls).Perm ls.flatten
  | 0, ls => .refl _
  | k + 1, ls => (mergeAll_perm k (mergePairs ls)).trans (mergePairs_perm ls)

/-- Sorted and disjoint, and above `lo`. -/
def sortedFrom : Nat → List (Nat × Nat) → Bool
  | _, [] => true
  | lo, r :: rs => Nat.ble lo r.1 && Nat.ble r.1 r.2 && sortedFrom (r.2 + 1) rs

theorem sortedFrom_spec : ∀ (rs : List (Nat × Nat)) (lo : Nat), sortedFrom lo rs = true →
    rs.Pairwise (fun a b => a.2 < b.1 ∨ b.2 < a.1) ∧ ∀ r ∈ rs, lo ≤ r.1 ∧ r.1 ≤ r.2
  | [], _, _ => ⟨.nil, by simp⟩
  | r :: rs, lo, h => by
    simp only [sortedFrom, Bool.and_eq_true, Nat.ble_eq] at h
    obtain ⟨h1, h2⟩ := sortedFrom_spec rs _ h.2
    refine ⟨.cons (fun b hb => .inl (by have := (h2 b hb).1; omega)) h1, fun q hq => ?_⟩
    simp only [List.mem_cons] at hq
    rcases hq with rfl | hq
    · exact h.1
    · have := h2 q hq
      omega

/-- Lists of ranges whose union is sorted and disjoint after merging are disjoint. -/
theorem disjoint_of {ls : List (List (Nat × Nat))} {k : Nat} (h : sortedFrom 0 (mergeAll k ls) = true) :
    ls.Pairwise fun xs ys => ∀ c, Listed xs c → Listed ys c → False := by
  have h1 := (sortedFrom_spec _ _ h).1
  have h2 := ((mergeAll_perm k ls).pairwise_iff (R := fun a b => a.2 < b.1 ∨ b.2 < a.1) (fun h => h.symm)).1 h1
  rw [List.pairwise_flatten] at h2
  refine h2.2.imp fun h3 c => ?_
  rintro ⟨r, hr, h4⟩ ⟨q, hq, h5⟩
  have := h3 r hr q hq
  omega

/-! ### Families -/

def listOf (p : PropText) : List (Nat × Nat) :=
  match p with
  | .ranges _ rs => rs
  | .props _ => []

/-- The entries that list characters. -/
def plain (es : List (String × PropText)) : List (List (Nat × Nat)) := (es.filter fun e => isRanges e.2).map fun e => listOf e.2

theorem plain_mem {es : List (String × PropText)} {name : String} {up : Bool} {rs : List (Nat × Nat)} (h : (name, PropText.ranges up rs) ∈ es) :
    rs ∈ plain es := List.mem_map.2 ⟨_, List.mem_filter.2 ⟨h, rfl⟩, rfl⟩

theorem categories_sorted : sortedFrom 0 (mergeAll 5 (plain categoryEntries)) = true := by decide +kernel
theorem blocks_sorted : sortedFrom 0 (mergeAll 9 (plain blockEntries)) = true := by decide +kernel
theorem scripts_sorted : sortedFrom 0 (mergeAll 8 (plain scriptEntries)) = true := by decide +kernel

theorem forall_of_pairwise {α : Type} {R : α → α → Prop} (hs : ∀ {a b}, R a b → R b a) : ∀ {l : List α}, l.Pairwise R →
    ∀ {a b}, a ∈ l → b ∈ l → a ≠ b → R a b
  | [], _, a, b, ha, _, _ => by cases ha
  | x :: l, h, a, b, ha, hb, hne => by
    rw [List.pairwise_cons] at h
    simp only [List.mem_cons] at ha hb
    rcases ha with rfl | ha <;> rcases hb with rfl | hb
    · exact absurd rfl hne
    · exact h.1 b hb
    · exact hs (h.1 a ha)
    · exact forall_of_pairwise hs h.2 ha hb hne

/-- Two entries of a family that list characters list different characters. -/
theorem family_disjoint {es : List (String × PropText)} {k : Nat} (h : sortedFrom 0 (mergeAll k (plain es)) = true)
    {n m : String} {up up' : Bool} {rs qs : List (Nat × Nat)} (hn : (n, PropText.ranges up rs) ∈ es) (hm : (m, PropText.ranges up' qs) ∈ es)
    (hne : n ≠ m) {c : Nat} (h1 : Listed rs c) (h2 : Listed qs c) : False := by
  have := disjoint_of h
  unfold plain at this
  rw [List.pairwise_map] at this
  exact forall_of_pairwise (fun h c h1 h2 => h c h2 h1) this (List.mem_filter.2 ⟨hn, rfl⟩) (List.mem_filter.2 ⟨hm, rfl⟩)
    (fun e => hne (congrArg Prod.fst e)) c h1 h2

theorem blocks_plain : (blockEntries.all fun e => isRanges e.2) = true := by decide +kernel
theorem scripts_plain : (scriptEntries.all fun e => isRanges e.2) = true := by decide +kernel

theorem ranges_of_plain {es : List (String × PropText)} (h : (es.all fun e => isRanges e.2) = true) {n : String} {p : PropText} (hp : (n, p) ∈ es) :
    ∃ up rs, p = .ranges up rs := by
  have := List.all_eq_true.1 h _ hp
  cases p with
  | ranges up rs => exact ⟨up, rs, rfl⟩
  | props _ => cases this

/-! ### Normal forms -/

/-- Join neighbouring ranges. -/
def join : Nat × Nat → List (Nat × Nat) → List (Nat × Nat)
  | r, [] => [r]
  | r, q :: qs => if Nat.beq q.1 (r.2 + 1) then join (r.1, q.2) qs else r :: join q qs

theorem join_mem : ∀ (qs : List (Nat × Nat)) (r : Nat × Nat), r.1 ≤ r.2 → (∀ q ∈ qs, q.1 ≤ q.2) → ∀ c, Mem c (join r qs) ↔ Listed (r :: qs) c
  | [], r, _, _, c => by simp [join, Mem, Listed]
  | q :: qs, r, hr, hq, c => by
    have h0 := hq q (by simp)
    unfold join
    split
    · rename_i h
      have h := Nat.eq_of_beq_eq_true h
      rw [join_mem qs (r.1, q.2) (by dsimp only; omega) (fun x hx => hq x (by simp [hx])) c]
      unfold Listed
      simp only [List.mem_cons, exists_eq_or_imp]
      constructor
      · rintro (h1 | h1)
        · by_cases h2 : c ≤ r.2
          · exact .inl ⟨h1.1, h2⟩
          · exact .inr (.inl ⟨by omega, h1.2⟩)
        · exact .inr (.inr h1)
      · rintro (h1 | h1 | h1)
        · exact .inl ⟨h1.1, by omega⟩
        · exact .inl ⟨by omega, h1.2⟩
        · exact .inr h1
    · have ih := join_mem qs q h0 (fun x hx => hq x (by simp [hx])) c
      unfold Mem Listed at *
      simp only [List.mem_cons, exists_eq_or_imp] at *
      rw [ih]

/-- The lists of characters behind a text. -/
def listsOf : PropText → List (List (Nat × Nat))
  | .ranges _ rs => [rs]
  | .props ns => ns.map fun n => ((table.find? fun e => isRanges e.2 && e.1 == n).map fun e => listOf e.2).getD []

/-- The union of lists of ranges, with neighbours joined. -/
def unionOf (k : Nat) (ls : List (List (Nat × Nat))) : List (Nat × Nat) :=
  match mergeAll k ls with
  | [] => []
  | r :: rs => join r rs

theorem unionOf_mem {k : Nat} {ls : List (List (Nat × Nat))} (h1 : ∀ r ∈ ls.flatten, r.1 ≤ r.2) (c : Nat) :
    Mem c (unionOf k ls) ↔ Listed ls.flatten c := by
  have hp := mergeAll_perm k ls
  have h3 : Listed (mergeAll k ls) c ↔ Listed ls.flatten c := by
    unfold Listed
    constructor
    · rintro ⟨r, hr, hc⟩
      exact ⟨r, hp.mem_iff.1 hr, hc⟩
    · rintro ⟨r, hr, hc⟩
      exact ⟨r, hp.mem_iff.2 hr, hc⟩
  rw [← h3]
  unfold unionOf
  split
  · rename_i he
    rw [he]
    simp [Mem, Listed]
  · rename_i r rs he
    rw [he]
    have ho : ∀ q ∈ r :: rs, q.1 ≤ q.2 := fun q hq => h1 q (hp.mem_iff.1 (he ▸ hq))
    exact join_mem rs r (ho r (by simp)) (fun q hq => ho q (by simp [hq])) c

def norm (p : PropText) : List (Nat × Nat) := unionOf 3 (listsOf p)

/-- Normal, above `lo`, every range inside two neighbouring planes. -/
def normalFrom : Nat → List (Nat × Nat) → Bool
  | _, [] => true
  | lo, r :: rs => Nat.ble lo r.1 && Nat.ble r.1 r.2 && Nat.ble (r.2 / 65536) (r.1 / 65536 + 1) && normalFrom (r.2 + 2) rs

theorem normalFrom_spec : ∀ (rs : List (Nat × Nat)) (lo : Nat), normalFrom lo rs = true →
    Normal rs ∧ ∀ r ∈ rs, lo ≤ r.1 ∧ r.1 ≤ r.2 ∧ r.2 / 65536 ≤ r.1 / 65536 + 1
  | [], _, _ => ⟨⟨by simp, .nil⟩, by simp⟩
  | r :: rs, lo, h => by
    simp only [normalFrom, Bool.and_eq_true, Nat.ble_eq] at h
    obtain ⟨⟨h1, h2⟩, h3⟩ := normalFrom_spec rs _ h.2
    refine ⟨⟨fun q hq => ?_, .cons (fun b hb => by have := (h3 b hb).1; omega) h2⟩, fun q hq => ?_⟩
    · simp only [List.mem_cons] at hq
      rcases hq with rfl | hq
      · exact h.1.1.2
      · exact h1 q hq
    · simp only [List.mem_cons] at hq
      rcases hq with rfl | hq
      · exact ⟨h.1.1.1, h.1.1.2, h.1.2⟩
      · have := h3 q hq
        omega

theorem table_norm : (table.all fun e => normalFrom 0 (norm e.2) && Nat.ble (norm e.2).length 1000) = true := by decide +kernel

theorem listsOf_refs {ns : List String} (h : ∀ n ∈ ns, ∃ up rs, (n, PropText.ranges up rs) ∈ table) :
    (∀ r ∈ (listsOf (.props ns)).flatten, r.1 ≤ r.2) ∧ ∀ c, Listed (listsOf (.props ns)).flatten c ↔ Any HasProp ns c := by
  have hf : ∀ n ∈ ns, ∃ up rs, (n, PropText.ranges up rs) ∈ table ∧
      ((table.find? fun e => isRanges e.2 && e.1 == n).map fun e => listOf e.2).getD [] = rs := by
    intro n hn
    obtain ⟨up, rs, h1⟩ := h n hn
    cases hf : table.find? (fun e => isRanges e.2 && e.1 == n) with
    | none =>
      have := List.find?_eq_none.1 hf _ h1
      simp [isRanges] at this
    | some e =>
      have h2 := List.find?_some hf
      have h3 := List.mem_of_find?_eq_some hf
      simp only [Bool.and_eq_true, beq_iff_eq] at h2
      obtain ⟨m, q⟩ := e
      obtain ⟨h4, rfl⟩ := h2
      obtain rfl := entry_unique h1 h3
      exact ⟨up, rs, h1, rfl⟩
  simp only [listsOf]
  constructor
  · intro r hr
    simp only [List.mem_flatten, List.mem_map] at hr
    obtain ⟨l, ⟨n, hn, rfl⟩, hr⟩ := hr
    obtain ⟨up, rs, h1, h2⟩ := hf n hn
    rw [h2] at hr
    exact ((ranges_ok h1).2 r hr).1
  · intro c
    unfold Listed Any
    simp only [List.mem_flatten, List.mem_map]
    constructor
    · rintro ⟨r, ⟨l, ⟨n, hn, rfl⟩, hr⟩, hc⟩
      obtain ⟨up, rs, h1, h2⟩ := hf n hn
      rw [h2] at hr
      exact ⟨n, hn, .listed _ _ _ _ h1 ⟨r, hr, hc⟩⟩
    · rintro ⟨n, hn, hc⟩
      obtain ⟨up, rs, h1, h2⟩ := hf n hn
      rw [hasProp_ranges h1] at hc
      obtain ⟨r, hr, hc⟩ := hc
      exact ⟨r, ⟨_, ⟨n, hn, rfl⟩, by rw [h2]; exact hr⟩, hc⟩

theorem listsOf_spec {name : String} {p : PropText} (h : (name, p) ∈ table) :
    (∀ r ∈ (listsOf p).flatten, r.1 ≤ r.2) ∧ ∀ c, Listed (listsOf p).flatten c ↔ HasProp name c := by
  cases p with
  | ranges up rs =>
    rw [hasProp_ranges h]
    simp only [listsOf, List.flatten_cons, List.flatten_nil, List.append_nil]
    exact ⟨fun r hr => ((ranges_ok h).2 r hr).1, fun _ => trivial⟩
  | props ns =>
    rw [hasProp_props h]
    exact listsOf_refs (refs_ok h).2

theorem norm_mem {name : String} {p : PropText} (h : (name, p) ∈ table) (c : Nat) : Mem c (norm p) ↔ HasProp name c := by
  obtain ⟨h1, h2⟩ := listsOf_spec h
  rw [norm, unionOf_mem h1, h2]

/-- The members of a property in normal form. -/
theorem norm_spec {name : String} {p : PropText} (h : (name, p) ∈ table) :
    IsSet (norm p) (HasProp name) ∧ (∀ r ∈ norm p, FewPlanes r) ∧ (norm p).length ≤ 1000 := by
  have h1 := List.all_eq_true.1 table_norm _ h
  simp only [Bool.and_eq_true, Nat.ble_eq] at h1
  obtain ⟨h2, h3⟩ := normalFrom_spec _ _ h1.1
  exact ⟨⟨h2, norm_mem h⟩, fun r hr => .inl (h3 r hr).2.2, h1.2⟩

theorem posix_norm : (posixProps.all fun e => normalFrom 0 (norm (.props e.2)) && Nat.ble (norm (.props e.2)).length 1400) = true := by decide +kernel

theorem posix_refs : (posixProps.all fun e => !e.2.isEmpty && e.2.all fun n => table.any fun t => t.1 == n && isRanges t.2) = true := by decide +kernel

theorem posix_ok {name : String} {ns : List String} (h : (name, ns) ∈ posixProps) :
    ns ≠ [] ∧ ∀ n ∈ ns, ∃ up rs, (n, PropText.ranges up rs) ∈ table := by
  have := List.all_eq_true.1 posix_refs _ h
  simp only [Bool.and_eq_true, List.all_eq_true, Bool.not_eq_true', List.isEmpty_eq_false_iff, List.any_eq_true, beq_iff_eq] at this
  refine ⟨this.1, fun n hn => ?_⟩
  obtain ⟨⟨m, p⟩, h1, rfl, h2⟩ := this.2 n hn
  cases p with
  | ranges up rs => exact ⟨up, rs, h1⟩
  | props _ => cases h2

theorem posix_spec {name : String} {ns : List String} (h : (name, ns) ∈ posixProps) :
    IsSet (norm (.props ns)) (Any HasProp ns) ∧ (∀ r ∈ norm (.props ns), FewPlanes r) ∧ (norm (.props ns)).length ≤ 1400 := by
  have h1 := List.all_eq_true.1 posix_norm _ h
  simp only [Bool.and_eq_true, Nat.ble_eq] at h1
  obtain ⟨h2, h3⟩ := normalFrom_spec _ _ h1.1
  obtain ⟨h4, h5⟩ := listsOf_refs (posix_ok h).2
  exact ⟨⟨h2, fun c => (unionOf_mem h4 c).trans (h5 c)⟩, fun r hr => .inl (h3 r hr).2.2, h1.2⟩

/-! ### Families -/

/-- Every range of the second list is inside a range of the first. -/
def covers : Nat → List (Nat × Nat) → List (Nat × Nat) → Bool
  | 0, _, _ => false
  | _ + 1, _, [] => true
  | _ + 1, [], _ :: _ => false
  | k + 1, x :: xs, y :: ys =>
    if Nat.ble x.1 y.1 && Nat.ble y.2 x.2 then covers k (x :: xs) ys else if Nat.blt x.2 y.1 then covers k xs (y :: ys) else false

theorem covers_spec : ∀ (k : Nat) (xs ys : List (Nat × Nat)), covers k xs ys = true → ∀ c, Mem c ys → Mem c xs
  | 0, _, _, h => by cases h
  | _ + 1, xs, [], _ => by
    intro c hc
    obtain ⟨r, hr, _⟩ := hc
    cases hr
  | _ + 1, [], _ :: _, h => by cases h
  | k + 1, x :: xs, y :: ys, h => by
    unfold covers at h
    intro c hc
    split at h
    · rename_i h1
      simp only [Bool.and_eq_true, Nat.ble_eq] at h1
      obtain ⟨r, hr, hc⟩ := hc
      simp only [List.mem_cons] at hr
      rcases hr with rfl | hr
      · exact ⟨x, by simp, by omega⟩
      · exact covers_spec k _ _ h c ⟨r, hr, hc⟩
    · split at h
      · obtain ⟨r, hr, hc⟩ := covers_spec k _ _ h c hc
        exact ⟨r, by simp [hr], hc⟩
      · cases h

/-- The lists of a family, without some names. -/
def listsBut (but : List String) (es : List (String × PropText)) : List (List (Nat × Nat)) := plain (es.filter fun e => !but.contains e.1)

theorem listsBut_spec {but : List String} {es : List (String × PropText)} (h : ∀ e ∈ es, e ∈ table) (c : Nat) :
    (∀ r ∈ (listsBut but es).flatten, r.1 ≤ r.2) ∧
    (Listed (listsBut but es).flatten c ↔ ∃ n up rs, (n, PropText.ranges up rs) ∈ es ∧ n ∉ but ∧ HasProp n c) := by
  have hmem : ∀ r, r ∈ (listsBut but es).flatten ↔ ∃ n up rs, (n, PropText.ranges up rs) ∈ es ∧ n ∉ but ∧ r ∈ rs := by
    intro r
    simp only [listsBut, plain, List.mem_flatten, List.mem_map, List.mem_filter]
    constructor
    · rintro ⟨l, ⟨⟨n, p⟩, ⟨⟨h1, h2⟩, h3⟩, rfl⟩, hr⟩
      cases p with
      | ranges up rs => exact ⟨n, up, rs, h1, by simpa using h2, hr⟩
      | props _ => cases h3
    · rintro ⟨n, up, rs, h1, h2, hr⟩
      exact ⟨rs, ⟨(n, .ranges up rs), ⟨⟨h1, by simpa using h2⟩, rfl⟩, rfl⟩, hr⟩
  constructor
  · intro r hr
    obtain ⟨n, up, rs, h1, _, h2⟩ := (hmem r).1 hr
    exact ((ranges_ok (h _ h1)).2 r h2).1
  · unfold Listed
    constructor
    · rintro ⟨r, hr, hc⟩
      obtain ⟨n, up, rs, h1, h2, h3⟩ := (hmem r).1 hr
      exact ⟨n, up, rs, h1, h2, .listed _ _ _ _ (h _ h1) ⟨r, h3, hc⟩⟩
    · rintro ⟨n, up, rs, h1, h2, h3⟩
      rw [hasProp_ranges (h _ h1)] at h3
      obtain ⟨r, hr, hc⟩ := h3
      exact ⟨r, (hmem r).2 ⟨n, up, rs, h1, h2, hr⟩, hc⟩

theorem category_table : ∀ e ∈ categoryEntries, e ∈ table := fun e he => by simp [table, he]
theorem block_table : ∀ e ∈ blockEntries, e ∈ table := fun e he => by simp [table, he]
theorem script_table : ∀ e ∈ scriptEntries, e ∈ table := fun e he => by simp [table, he]

theorem category_names : ((categoryEntries.filter fun e => isRanges e.2).map (·.1) == categories) = true := by decide +kernel

theorem category_ranges {n : String} : (∃ up rs, (n, PropText.ranges up rs) ∈ categoryEntries) ↔ n ∈ categories := by
  rw [← eq_of_beq category_names]
  simp only [List.mem_map, List.mem_filter]
  constructor
  · rintro ⟨up, rs, h⟩
    exact ⟨_, ⟨h, rfl⟩, rfl⟩
  · rintro ⟨⟨n, p⟩, ⟨h1, h2⟩, rfl⟩
    cases p with
    | ranges up rs => exact ⟨up, rs, h1⟩
    | props _ => cases h2

theorem scripts_covered : covers 100000 (unionOf 6 (unlistedLetters :: listsBut ["Co", "Cs"] categoryEntries)) (unionOf 9 (listsBut [] scriptEntries)) = true := by
  decide +kernel

theorem categories_covered : covers 100000 (unionOf 9 (listsBut [] scriptEntries)) (unionOf 6 (unlistedLetters :: listsBut ["Co", "Cs"] categoryEntries)) = true := by
  decide +kernel

theorem blocks_cover : covers 100000 (unionOf 10 (listsBut [] blockEntries)) (unionOf 6 (unlistedLetters :: listsBut [] categoryEntries)) = true := by
  decide +kernel

theorem lost_alone : sortedFrom 0 (mergeAll 6 (unlistedLetters :: plain categoryEntries)) = true := by decide +kernel

theorem lost_scripts : covers 1000 (unionOf 2 (listsOf (.props ["IsHan", "IsHangul", "IsTangut"]))) unlistedLetters = true := by decide +kernel

theorem lost_refs : (["IsHan", "IsHangul", "IsTangut"].all fun n => table.any fun t => t.1 == n && isRanges t.2) = true := by decide +kernel

end Lexertl.Uni
