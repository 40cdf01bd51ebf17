import Verif.Proofs.Csm

/-
`minimise` of a char state machine: merging equal states is a renumbering.
-/
namespace Lexertl.Csm
open Spec

theorem csmInner_spec (row : CState) (newIx : Nat) (rs : List CState) : ∀ (curr : Nat) (lookup set : List Nat),
    curr + rs.length ≤ lookup.length →
    (csmInner row newIx rs curr (lookup, set)).1.length = lookup.length ∧
    (∀ j, j ∈ (csmInner row newIx rs curr (lookup, set)).2 ↔
      j ∈ set ∨ ∃ i, rs[i]? = some row ∧ j = curr + i) ∧
    (∀ j, (csmInner row newIx rs curr (lookup, set)).1[j]? =
      if j ∉ set ∧ j ∈ (csmInner row newIx rs curr (lookup, set)).2 then some newIx else lookup[j]?) := by
  induction rs with
  | nil =>
    intro curr lookup set _
    refine ⟨rfl, fun j => ?_, fun j => ?_⟩
    · simp [csmInner]
    · rw [if_neg]
      · rfl
      · exact fun h => h.1 h.2
  | cons r rs ih =>
    intro curr lookup set hl
    rw [List.length_cons] at hl
    have succ : ∀ j : Nat, (∃ i, (r :: rs)[i]? = some row ∧ j = curr + i) ↔
        (r = row ∧ j = curr) ∨ ∃ i, rs[i]? = some row ∧ j = curr + 1 + i := by
      intro j
      constructor
      · rintro ⟨i, h1, h2⟩
        cases i with
        | zero => exact .inl ⟨by simpa using h1, by omega⟩
        | succ i => exact .inr ⟨i, by simpa using h1, by omega⟩
      · rintro (⟨h1, h2⟩ | ⟨i, h1, h2⟩)
        · exact ⟨0, by simp [h1], by omega⟩
        · exact ⟨i + 1, by simpa using h1, by omega⟩
    rw [csmInner]
    by_cases hc : curr ∈ set
    · rw [if_pos hc]
      obtain ⟨i1, i2, i3⟩ := ih (curr + 1) lookup set (by omega)
      refine ⟨i1, fun j => ?_, i3⟩
      rw [i2, succ]
      constructor
      · rintro (h | h)
        · exact .inl h
        · exact .inr (.inr h)
      · rintro (h | ⟨_, rfl⟩ | h)
        · exact .inl h
        · exact .inl hc
        · exact .inr h
    · rw [if_neg hc]
      by_cases hr : row = r
      · rw [if_pos hr]
        obtain ⟨i1, i2, i3⟩ := ih (curr + 1) (lookup.set curr newIx) (curr :: set) (by rw [List.length_set]; omega)
        rw [List.length_set] at i1
        have i2' : ∀ j, j ∈ (csmInner row newIx rs (curr + 1) (lookup.set curr newIx, curr :: set)).2 ↔
            j ∈ set ∨ ∃ i, (r :: rs)[i]? = some row ∧ j = curr + i := by
          intro j
          rw [i2, succ, List.mem_cons]
          constructor
          · rintro ((h | h) | h)
            · exact .inr (.inl ⟨hr.symm, h⟩)
            · exact .inl h
            · exact .inr (.inr h)
          · rintro (h | ⟨_, h⟩ | h)
            · exact .inl (.inr h)
            · exact .inl (.inl h)
            · exact .inr h
        refine ⟨i1, i2', fun j => ?_⟩
        rw [i3]
        by_cases hj : j = curr
        · subst hj
          rw [if_neg (by simp), if_pos ⟨hc, by rw [i2]; simp⟩]
          rw [List.getElem?_set_self (by omega)]
        · rw [List.getElem?_set_ne (fun h => hj h.symm)]
          simp only [List.mem_cons, hj, false_or]
      · rw [if_neg hr]
        obtain ⟨i1, i2, i3⟩ := ih (curr + 1) lookup set (by omega)
        refine ⟨i1, fun j => ?_, i3⟩
        rw [i2, succ]
        constructor
        · rintro (h | h)
          · exact .inl h
          · exact .inr (.inr h)
        · rintro (h | ⟨h, _⟩ | h)
          · exact .inl h
          · exact absurd h.symm hr
          · exact .inr h

/-- The states, numbered from `i` on, whose number is not in `set`. -/
def ckeep (set : List Nat) : List CState → Nat → List CState
  | [], _ => []
  | r :: rs, i => if i ∈ set then ckeep set rs (i + 1) else r :: ckeep set rs (i + 1)

/-- Invariant of the outer loop before state `i`: `K` are the states kept so far. -/
structure CInv (npos : Nat) (rows : List CState) (i : Nat) (K : List CState) (lookup set : List Nat) : Prop where
  len : lookup.length = rows.length
  small : K.length ≤ i
  done : ∀ j, j < rows.length → j < i ∨ j ∈ set → ∃ v, lookup[j]? = some v ∧ v < K.length ∧ K[v]? = rows[j]?
  todo : ∀ j, i ≤ j → j < rows.length → j ∉ set → lookup[j]? = some npos
  full : ∀ k j, k < i → k < j → j < rows.length → rows[k]? = rows[j]? → j ∈ set
  sub : ∀ j ∈ set, j < rows.length ∧ ∃ k, k < i ∧ k < j ∧ rows[k]? = rows[j]?
  zero : 0 < i → lookup[0]? = some 0
  onto : ∀ v < K.length, ∃ j < i, lookup[j]? = some v

theorem csmOuter_spec {npos : Nat} {rows : List CState} (hn : rows.length ≤ npos) (rs : List CState) :
    ∀ (i : Nat) (K : List CState) (lookup set : List Nat), rs = rows.drop i → i ≤ rows.length →
    CInv npos rows i K lookup set →
    CInv npos rows rows.length (K ++ ckeep (csmOuter npos rs i K.length (lookup, set)).2 rs i)
      (csmOuter npos rs i K.length (lookup, set)).1 (csmOuter npos rs i K.length (lookup, set)).2 ∧
    ∀ j ≤ i, j ∈ (csmOuter npos rs i K.length (lookup, set)).2 ↔ j ∈ set := by
  induction rs with
  | nil =>
    intro i K lookup set hrs hle I
    have : i = rows.length := by
      have := congrArg List.length hrs
      simp at this
      omega
    subst this
    exact ⟨by simpa [csmOuter, ckeep] using I, fun j _ => Iff.rfl⟩
  | cons r rs ih =>
    intro i K lookup set hrs hle I
    have hlt : i < rows.length := by
      have := congrArg List.length hrs
      simp at this
      omega
    have hri : rows[i]? = some r := by
      have : (rows.drop i)[0]? = some r := by rw [← hrs]; rfl
      simpa using this
    have hrs' : rs = rows.drop (i + 1) := by
      have : (rows.drop i).drop 1 = rs := by rw [← hrs]; rfl
      rw [← this, List.drop_drop]
    have hget : ∀ k, rs[k]? = rows[i + 1 + k]? := by
      intro k
      rw [hrs', List.getElem?_drop]
    obtain ⟨a1, a2, a3⟩ := csmInner_spec r K.length rs (i + 1) lookup set (by
      rw [I.len, hrs', List.length_drop]; omega)
    rw [csmOuter]
    generalize hst : csmInner r K.length rs (i + 1) (lookup, set) = st at a1 a2 a3
    obtain ⟨lk, st⟩ := st
    dsimp only at a1 a2 a3 ⊢
    -- membership in the new set
    have m2 : ∀ j, j ∈ st ↔ j ∈ set ∨ (i < j ∧ rows[j]? = some r) := by
      intro j
      rw [a2]
      constructor
      · rintro (h | ⟨k, h1, h2⟩)
        · exact .inl h
        · rw [hget] at h1
          exact .inr ⟨by omega, by rw [h2]; exact h1⟩
      · rintro (h | ⟨h1, h2⟩)
        · exact .inl h
        · exact .inr ⟨j - (i + 1), by rw [hget, show i + 1 + (j - (i + 1)) = j by omega]; exact h2, by omega⟩
    have old : ∀ j ≤ i, j ∈ st ↔ j ∈ set := by
      intro j hj
      rw [m2]
      constructor
      · rintro (h | h)
        · exact h
        · omega
      · exact .inl
    have l2 : ∀ j, j ≤ i ∨ j ∈ set → lk[j]? = lookup[j]? := by
      intro j hj
      rw [a3]
      rw [if_neg]
      rintro ⟨h1, h2⟩
      rcases hj with hj | hj
      · exact h1 ((old j hj).1 h2)
      · exact h1 hj
    by_cases his : i ∈ set
    · -- the row equals an earlier one
      obtain ⟨_, k, k2, k3, k4⟩ := I.sub i his
      have hsame : ∀ j, j ∈ st ↔ j ∈ set := by
        intro j
        rw [m2]
        constructor
        · rintro (h | ⟨h1, h2⟩)
          · exact h
          · exact I.full k j k2 (by omega) (List.getElem?_eq_some_iff.1 h2).1 (by rw [k4, hri, h2])
        · exact .inl
      obtain ⟨v, v1, v2, v3⟩ := I.done i hlt (.inr his)
      have hnp : lk[i]? ≠ some npos := by
        rw [l2 i (.inl (Nat.le_refl _)), v1]
        intro h
        have := Option.some.inj h
        have := I.small
        omega
      rw [if_neg hnp]
      have I' : CInv npos rows (i + 1) K lk st := by
        have hl : ∀ j : Nat, lk[j]? = lookup[j]? := by
          intro j
          rw [a3, if_neg]
          rintro ⟨h1, h2⟩
          exact h1 ((hsame j).1 h2)
        refine ⟨a1.trans I.len, by have := I.small; omega, ?_, ?_, ?_, ?_, ?_, ?_⟩
        · intro j h1 h2
          rw [hl]
          refine I.done j h1 ?_
          rcases h2 with h2 | h2
          · rcases Nat.lt_succ_iff_lt_or_eq.1 h2 with h | h
            · exact .inl h
            · exact .inr (by rw [h]; exact his)
          · exact .inr ((hsame j).1 h2)
        · intro j h1 h2 h3
          rw [hl]
          exact I.todo j (by omega) h2 (fun h => h3 ((hsame j).2 h))
        · intro a b h2 h3 h4 h5
          rcases Nat.lt_succ_iff_lt_or_eq.1 h2 with h | h
          · exact (hsame b).2 (I.full a b h h3 h4 h5)
          · subst h
            exact (hsame b).2 (I.full k b k2 (by omega) h4 (by rw [k4, h5]))
        · intro j hj
          obtain ⟨s1, a, s3, s4, s5⟩ := I.sub j ((hsame j).1 hj)
          exact ⟨s1, a, by omega, s4, s5⟩
        · intro _
          rw [hl]
          exact I.zero (by omega)
        · intro v hv
          obtain ⟨j, j1, j2⟩ := I.onto v hv
          exact ⟨j, by omega, by rw [hl]; exact j2⟩
      obtain ⟨j1, j2⟩ := ih (i + 1) K lk st hrs' (by omega) I'
      have hin : i ∈ (csmOuter npos rs (i + 1) K.length (lk, st)).2 :=
        (j2 i (by omega)).2 ((old i (Nat.le_refl _)).2 his)
      refine ⟨?_, fun j hj => (j2 j (by omega)).trans (old j hj)⟩
      rw [ckeep, if_pos hin]
      exact j1
    · -- a new row
      have hi2 : i ∉ st := fun h => his ((old i (Nat.le_refl _)).1 h)
      have hnp : lk[i]? = some npos := by
        rw [l2 i (.inl (Nat.le_refl _))]
        exact I.todo i (Nat.le_refl _) hlt his
      rw [if_pos hnp]
      have hl : ∀ j : Nat, j ≠ i → (lk.set i K.length)[j]? = lk[j]? := fun j hj =>
        List.getElem?_set_ne (fun h => hj h.symm)
      have hself : (lk.set i K.length)[i]? = some K.length :=
        List.getElem?_set_self (by rw [a1, I.len]; exact hlt)
      have hKl : (K ++ [r]).length = K.length + 1 := by simp
      have I' : CInv npos rows (i + 1) (K ++ [r]) (lk.set i K.length) st := by
        refine ⟨by rw [List.length_set]; exact a1.trans I.len, by have := I.small; omega,
          ?_, ?_, ?_, ?_, ?_, ?_⟩
        · intro j h1 h2
          by_cases hj : j = i
          · subst hj
            refine ⟨K.length, hself, by omega, ?_⟩
            rw [List.getElem?_append_right (Nat.le_refl _), hri]
            simp
          · rw [hl j hj]
            by_cases hjs : j ∉ set ∧ j ∈ st
            · rw [a3, if_pos hjs]
              refine ⟨K.length, rfl, by omega, ?_⟩
              rw [List.getElem?_append_right (Nat.le_refl _)]
              rcases (m2 j).1 hjs.2 with h | h
              · exact absurd h hjs.1
              · rw [h.2]; simp
            · have hj' : j < i ∨ j ∈ set := by
                rcases h2 with h2 | h2
                · exact .inl (by omega)
                · by_cases h3 : j ∈ set
                  · exact .inr h3
                  · exact absurd ⟨h3, h2⟩ hjs
              rw [a3, if_neg hjs]
              obtain ⟨v, v1, v2, v3⟩ := I.done j h1 hj'
              exact ⟨v, v1, by omega, by rw [List.getElem?_append_left v2]; exact v3⟩
        · intro j h1 h2 h3
          rw [hl j (by omega), a3, if_neg (fun h => h3 h.2)]
          exact I.todo j (by omega) h2 (fun h => h3 ((m2 j).2 (.inl h)))
        · intro a b h2 h3 h4 h5
          rcases Nat.lt_succ_iff_lt_or_eq.1 h2 with h | h
          · exact (m2 b).2 (.inl (I.full a b h h3 h4 h5))
          · subst h
            exact (m2 b).2 (.inr ⟨h3, by rw [← h5]; exact hri⟩)
        · intro j hj
          rcases (m2 j).1 hj with h | ⟨h1, h2⟩
          · obtain ⟨s1, a, s3, s4, s5⟩ := I.sub j h
            exact ⟨s1, a, by omega, s4, s5⟩
          · exact ⟨(List.getElem?_eq_some_iff.1 h2).1, i, by omega, h1, by rw [hri, h2]⟩
        · intro _
          by_cases h1 : i = 0
          · subst h1
            rw [hself]
            have := I.small
            congr 1
            omega
          · rw [hl 0 (by omega), l2 0 (.inl (by omega))]
            exact I.zero (by omega)
        · intro v hv
          by_cases h : v = K.length
          · subst h; exact ⟨i, by omega, hself⟩
          · obtain ⟨j, j1, j2⟩ := I.onto v (by omega)
            exact ⟨j, by omega, by rw [hl j (by omega), l2 j (.inl (by omega))]; exact j2⟩
      obtain ⟨j1, j2⟩ := ih (i + 1) (K ++ [r]) (lk.set i K.length) st hrs' (by omega) I'
      rw [hKl] at j1 j2
      have hin : i ∉ (csmOuter npos rs (i + 1) (K.length + 1) (lk.set i K.length, st)).2 :=
        fun h => hi2 ((j2 i (by omega)).1 h)
      refine ⟨?_, fun j hj => (j2 j (by omega)).trans (old j hj)⟩
      rw [ckeep, if_neg hin]
      rwa [List.append_assoc] at j1

theorem ckeep_length_le (set : List Nat) : ∀ (rs : List CState) (i : Nat), (ckeep set rs i).length ≤ rs.length
  | [], _ => Nat.le_refl _
  | r :: rs, i => by
    have := ckeep_length_le set rs (i + 1)
    rw [ckeep]
    split <;> simp only [List.length_cons] <;> omega

theorem ckeep_length_lt {set : List Nat} {j : Nat} (hj : j ∈ set) : ∀ (rs : List CState) (i : Nat),
    i ≤ j → j < i + rs.length → (ckeep set rs i).length < rs.length
  | [], i, h1, h2 => by simp at h2; omega
  | r :: rs, i, h1, h2 => by
    rw [List.length_cons] at h2
    rw [ckeep]
    by_cases hi : i ∈ set
    · rw [if_pos hi]
      have := ckeep_length_le set rs (i + 1)
      simp only [List.length_cons]; omega
    · rw [if_neg hi]
      have : i ≠ j := fun h => hi (h ▸ hj)
      have := ckeep_length_lt hj rs (i + 1) (by omega) (by omega)
      simp only [List.length_cons]; omega


theorem mapIx_ok {lookup : List Nat} {k : Nat} (h : k < lookup.length) :
    mapIx lookup k = .ok ((lookup[k]?).getD 0) := by
  rw [mapIx, List.getElem?_eq_getElem h]; rfl

theorem csmRemap_spec (lookup : List Nat) : ∀ (ts m : List (Nat × Token)), NormalIn ts → NormalIn m →
    (∀ p ∈ ts, p.1 < lookup.length) →
    ∃ m', csmRemap lookup ts m = .ok m' ∧ NormalIn m' ∧
      (∀ c t', GoesIn m' c t' ↔ GoesIn m c t' ∨ ∃ t, GoesIn ts c t ∧ (lookup[t]?).getD 0 = t') ∧
      (∀ p ∈ m', (∃ q ∈ m, q.1 = p.1) ∨ ∃ q ∈ ts, (lookup[q.1]?).getD 0 = p.1)
  | [], m, _, hm, _ => ⟨m, rfl, hm, by simp [GoesIn], fun p hp => .inl ⟨p, hp, rfl⟩⟩
  | (k, tok) :: ts, m, ht, hm, hk => by
    have hk0 := mapIx_ok (hk (k, tok) (by simp))
    obtain ⟨a1, a2, a3⟩ := transAdd_spec ((lookup[k]?).getD 0) tok (ht (k, tok) (by simp)) m hm
    obtain ⟨m', b1, b2, b3, b4⟩ := csmRemap_spec lookup ts _ (fun p hp => ht p (by simp [hp])) a1
      (fun p hp => hk p (by simp [hp]))
    refine ⟨m', ?_, b2, ?_, ?_⟩
    · simp only [csmRemap, hk0, bind, Except.bind]; exact b1
    · intro c t'
      rw [b3, a2]
      constructor
      · rintro ((h | ⟨h1, h2⟩) | ⟨t, ⟨set, h1, h2⟩, h3⟩)
        · exact .inl h
        · exact .inr ⟨k, ⟨tok, by simp, h2⟩, h1.symm⟩
        · exact .inr ⟨t, ⟨set, by simp [h1], h2⟩, h3⟩
      · rintro (h | ⟨t, ⟨set, h1, h2⟩, h3⟩)
        · exact .inl (.inl h)
        · rcases List.mem_cons.mp h1 with h1 | h1
          · cases h1; exact .inl (.inr ⟨h3.symm, h2⟩)
          · exact .inr ⟨t, ⟨set, h1, h2⟩, h3⟩
    · intro p hp
      rcases b4 p hp with ⟨q, h1, h2⟩ | ⟨q, h1, h2⟩
      · rcases a3 q h1 with h | ⟨q', h3, h4⟩
        · exact .inr ⟨(k, tok), by simp, by rw [← h2]; exact h.symm⟩
        · exact .inl ⟨q', h3, h4.trans h2⟩
      · exact .inr ⟨q, by simp [h1], h2⟩

/-- The state `s` renamed. -/
structure CRen (npos : Nat) (m : Nat → Nat) (s s' : CState) : Prop where
  endState : s'.endState = s.endState
  userId : s'.userId = s.userId
  nextDfa : s'.nextDfa = s.nextDfa
  eol : s'.eolIndex = (if s.eolIndex = npos then npos else m s.eolIndex)
  goes : ∀ c t', s'.Goes c t' ↔ ∃ t, s.Goes c t ∧ m t = t'
  normal : NormalIn s'.transitions
  keys : ∀ p ∈ s'.transitions, ∃ q ∈ s.transitions, m q.1 = p.1
  id : s'.id = (if s'.endState then 1 else 0)
  pushPop : s'.pushPop = .neither
  pushDfa : s'.pushDfa = npos

theorem csmMinState_spec {npos : Nat} {lookup : List Nat} {s : CState} (hn : NormalIn s.transitions)
    (he : s.eolIndex = npos ∨ s.eolIndex < lookup.length) (hk : ∀ p ∈ s.transitions, p.1 < lookup.length) :
    ∃ s', csmMinState npos lookup s = .ok s' ∧ CRen npos (fun v => (lookup[v]?).getD 0) s s' := by
  obtain ⟨m', b1, b2, b3, b4⟩ := csmRemap_spec lookup s.transitions [] hn (by intro p hp; simp at hp) hk
  have hgo : ∀ c t', GoesIn m' c t' ↔ ∃ t, s.Goes c t ∧ (lookup[t]?).getD 0 = t' := by
    intro c t'
    rw [b3]
    simp only [GoesIn, List.not_mem_nil, false_and, exists_false, false_or, CState.Goes]
  have hkeys : ∀ p ∈ m', ∃ q ∈ s.transitions, (lookup[q.1]?).getD 0 = p.1 := by
    intro p hp
    rcases b4 p hp with ⟨q, h, _⟩ | h
    · simp at h
    · exact h
  by_cases h : s.eolIndex = npos
  · refine ⟨{ CState.new npos with
      endState := s.endState, id := if s.endState then 1 else 0, userId := s.userId, nextDfa := s.nextDfa
      eolIndex := npos, transitions := m' }, ?_, rfl, rfl, rfl, ?_, hgo, b2, hkeys, rfl, rfl, rfl⟩
    · simp only [csmMinState, h, ne_eq, not_true_eq_false, if_false, b1, bind, Except.bind]
    · simp [h]
  · have hlt : s.eolIndex < lookup.length := by omega
    refine ⟨{ CState.new npos with
      endState := s.endState, id := if s.endState then 1 else 0, userId := s.userId, nextDfa := s.nextDfa
      eolIndex := (lookup[s.eolIndex]?).getD 0, transitions := m' }, ?_, rfl, rfl, rfl, ?_, hgo, b2, hkeys, rfl, rfl, rfl⟩
    · simp only [csmMinState, ne_eq, h, not_false_eq_true, if_true, mapIx_ok hlt, b1, bind, Except.bind]
    · simp [h]

theorem csmMinStates_spec {npos : Nat} {lookup set : List Nat} : ∀ (rs : List CState) (i : Nat),
    (∀ s ∈ rs, NormalIn s.transitions ∧ (s.eolIndex = npos ∨ s.eolIndex < lookup.length) ∧
      (∀ p ∈ s.transitions, p.1 < lookup.length)) →
    ∃ out, csmMinStates npos lookup set rs i = .ok out ∧ out.length = (ckeep set rs i).length ∧
      ∀ (k : Nat) s, (ckeep set rs i)[k]? = some s → ∃ s', out[k]? = some s' ∧
        CRen npos (fun v => (lookup[v]?).getD 0) s s'
  | [], i, _ => ⟨[], rfl, rfl, by simp [ckeep]⟩
  | r :: rs, i, h => by
    obtain ⟨out, o1, o2, o3⟩ := csmMinStates_spec (npos := npos) (lookup := lookup) (set := set) rs (i + 1)
      fun row hr => h row (by simp [hr])
    rw [csmMinStates, ckeep]
    by_cases hi : i ∈ set
    · rw [if_pos hi, if_pos hi]
      exact ⟨out, o1, o2, o3⟩
    · rw [if_neg hi, if_neg hi]
      obtain ⟨h1, h2, h3⟩ := h r (by simp)
      obtain ⟨r', r1, r2⟩ := csmMinState_spec h1 h2 h3
      refine ⟨r' :: out, by rw [r1, o1]; rfl, by simp [o2], ?_⟩
      intro k row hk
      cases k with
      | zero =>
        simp only [List.getElem?_cons_zero, Option.some.injEq] at hk ⊢
        exact ⟨r', rfl, hk ▸ r2⟩
      | succ k => simpa using o3 k row (by simpa using hk)

theorem ckeep_sub (set : List Nat) : ∀ (rs : List CState) (i : Nat), ∀ x ∈ ckeep set rs i, x ∈ rs
  | [], _, x, hx => hx
  | r :: rs, i, x, hx => by
    rw [ckeep] at hx
    split at hx
    · exact List.mem_cons_of_mem _ (ckeep_sub set rs _ _ hx)
    · rcases List.mem_cons.1 hx with rfl | h
      · simp
      · exact List.mem_cons_of_mem _ (ckeep_sub set rs _ _ h)

theorem merged_id {npos : Nat} {d : CDfa} : Merged npos d d id := by
  refine ⟨rfl, fun q hq => ⟨q, hq, rfl⟩, ?_, ?_⟩
  · by_cases h : d.bol = npos <;> simp [h]
  · intro p s hs
    refine ⟨s, hs, rfl, rfl, rfl, ?_, ?_⟩
    · by_cases h : s.eolIndex = npos <;> simp [h]
    · intro c t'
      exact ⟨fun h => ⟨t', h, rfl⟩, fun ⟨t, h, e⟩ => e ▸ h⟩

theorem merged_lt {npos : Nat} {d d' : CDfa} {m : Nat → Nat} (M : Merged npos d d' m) {p : Nat}
    (hp : p < d.states.length) : m p < d'.states.length := by
  obtain ⟨s', h, _⟩ := M.state p _ (List.getElem?_eq_getElem hp)
  exact (List.getElem?_eq_some_iff.1 h).1

theorem merged_comp {npos : Nat} {d d' d'' : CDfa} {m m' : Nat → Nat} (W : CWell npos d) (W' : CWell npos d')
    (M : Merged npos d d' m) (M' : Merged npos d' d'' m') : Merged npos d d'' (m' ∘ m) := by
  have hne : ∀ p < d.states.length, m p ≠ npos := by
    intro p hp
    have := merged_lt M hp
    have := W'.few
    omega
  refine ⟨?_, ?_, ?_, ?_⟩
  · show m' (m 0) = 0
    rw [M.first, M'.first]
  · intro q hq
    obtain ⟨p', h1, h2⟩ := M'.onto q hq
    obtain ⟨p, h3, h4⟩ := M.onto p' h1
    exact ⟨p, h3, by show m' (m p) = q; rw [h4, h2]⟩
  · rw [M'.bol, M.bol]
    by_cases h : d.bol = npos
    · simp [h]
    · have := hne d.bol (W.bol.resolve_left h)
      simp [h, this]
  · intro p s hs
    obtain ⟨s', s1, s2, s3, s4, s5, s6⟩ := M.state p s hs
    obtain ⟨s'', t1, t2, t3, t4, t5, t6⟩ := M'.state (m p) s' s1
    refine ⟨s'', t1, t2.trans s2, t3.trans s3, t4.trans s4, ?_, ?_⟩
    · rw [t5, s5]
      by_cases h : s.eolIndex = npos
      · simp [h]
      · have := hne s.eolIndex ((W.eol s (List.mem_of_getElem? hs)).resolve_left h)
        simp [h, this]
    · intro c t''
      rw [t6]
      constructor
      · rintro ⟨t', h1, h2⟩
        obtain ⟨t, h3, h4⟩ := (s6 c t').mp h1
        exact ⟨t, h3, by show m' (m t) = t''; rw [h4, h2]⟩
      · rintro ⟨t, h1, h2⟩
        exact ⟨m t, (s6 c _).mpr ⟨t, h1, rfl⟩, h2⟩

/-- One pass. -/
theorem csmMinimiseDfa_spec {npos : Nat} {d : CDfa} (W : CWell npos d) (hpos : 0 < d.states.length) :
    ∃ d' m, csmMinimiseDfa npos d = .ok d' ∧ CWell npos d' ∧ Merged npos d d' m ∧
      0 < d'.states.length ∧ d'.states.length ≤ d.states.length ∧
      ((d' = d ∧ NoTwins d) ∨ (d'.states.length < d.states.length ∧ ¬ NoTwins d ∧ Erased npos d')) := by
  have few := W.few
  have I0 : CInv npos d.states 0 [] (List.replicate d.states.length npos) [] := by
    refine ⟨by simp, by simp, ?_, ?_, by omega, by simp, by omega, by simp⟩
    · intro j _ h; simp at h
    · intro j _ h _
      rw [List.getElem?_replicate, if_pos h]
  obtain ⟨I, _⟩ := csmOuter_spec few d.states 0 [] _ [] rfl (by omega) I0
  simp only [List.length_nil, List.nil_append] at I
  generalize hst : csmOuter npos d.states 0 0 (List.replicate d.states.length npos, []) = st at I
  obtain ⟨lk, set⟩ := st
  dsimp only at I
  have hmin : csmMinimiseDfa npos d = (if set = [] then .ok d else do
      let bol ← if d.bol ≠ npos then mapIx lk d.bol else .ok npos
      let states ← csmMinStates npos lk set d.states 0
      .ok ⟨bol, states⟩) := by
    simp only [csmMinimiseDfa, hst]
  by_cases hs : set = []
  · rw [if_pos hs] at hmin
    refine ⟨d, id, hmin, W, merged_id, hpos, Nat.le_refl _, .inl ⟨rfl, ?_⟩⟩
    intro p q h1 h2 h3
    have := I.full p q (by omega) h1 h2 h3
    rw [hs] at this
    cases this
  · rw [if_neg hs] at hmin
    have hin : ∀ s ∈ d.states, NormalIn s.transitions ∧ (s.eolIndex = npos ∨ s.eolIndex < lk.length) ∧
        (∀ p ∈ s.transitions, p.1 < lk.length) := by
      intro s hs
      rw [I.len]
      exact ⟨fun p hp => (W.trans s hs p.1 p.2 hp).2, W.eol s hs, fun p hp => (W.trans s hs p.1 p.2 hp).1⟩
    obtain ⟨out, o1, o2, o3⟩ := csmMinStates_spec (npos := npos) (lookup := lk) (set := set) d.states 0 hin
    generalize hm : (fun v : Nat => (lk[v]?).getD 0) = m at o3
    have hmv : ∀ {v w : Nat}, lk[v]? = some w → m v = w := by
      intro v w h; rw [← hm]; simp [h]
    have hmlt : ∀ p < d.states.length, m p < out.length ∧ (ckeep set d.states 0)[m p]? = d.states[p]? := by
      intro p hp
      obtain ⟨v, v1, v2, v3⟩ := I.done p hp (.inl hp)
      rw [hmv v1, o2]
      exact ⟨v2, v3⟩
    have hres : csmMinimiseDfa npos d = .ok ⟨if d.bol = npos then npos else m d.bol, out⟩ := by
      rw [hmin]
      by_cases h : d.bol = npos
      · simp only [h, ne_eq, not_true_eq_false, if_false, o1, bind, Except.bind, if_true]
      · have hlt : d.bol < lk.length := by
          rw [I.len]; exact W.bol.resolve_left h
        simp only [h, ne_eq, not_false_eq_true, if_true, mapIx_ok hlt, o1, bind, Except.bind, if_false, ← hm]
    have hback : ∀ s' ∈ out, ∃ s ∈ d.states, CRen npos m s s' := by
      intro s' hs'
      obtain ⟨k, hk⟩ := List.mem_iff_getElem?.1 hs'
      have hlt : k < (ckeep set d.states 0).length := by
        rw [← o2]; exact (List.getElem?_eq_some_iff.1 hk).1
      obtain ⟨s'', r1, r2⟩ := o3 k _ (List.getElem?_eq_getElem hlt)
      rw [hk] at r1
      cases r1
      exact ⟨_, ckeep_sub set _ _ _ (List.getElem_mem hlt), r2⟩
    obtain ⟨j, hj⟩ : ∃ j, j ∈ set := List.exists_mem_of_ne_nil _ hs
    obtain ⟨j1, k, k1, k2, k3⟩ := I.sub j hj
    have hshort : out.length < d.states.length := by
      rw [o2]
      exact ckeep_length_lt hj d.states 0 (by omega) (by omega)
    refine ⟨_, m, hres, ?_, ?_, ?_, ?_, .inr ⟨hshort, fun h => h k j k2 j1 k3, ?_⟩⟩
    · refine ⟨?_, ?_, ?_, ?_⟩
      · show out.length ≤ npos; omega
      · show (if d.bol = npos then npos else m d.bol) = npos ∨ (if d.bol = npos then npos else m d.bol) < out.length
        by_cases h : d.bol = npos
        · simp [h]
        · right; rw [if_neg h]
          exact (hmlt _ (W.bol.resolve_left h)).1
      · intro s' hs'
        obtain ⟨s, h1, h2⟩ := hback s' hs'
        rw [h2.eol]
        by_cases h : s.eolIndex = npos
        · simp [h]
        · right; rw [if_neg h]
          exact (hmlt _ ((W.eol s h1).resolve_left h)).1
      · intro s' hs' t tset ht
        obtain ⟨s, h1, h2⟩ := hback s' hs'
        obtain ⟨q, q1, q2⟩ := h2.keys _ ht
        refine ⟨?_, h2.normal _ ht⟩
        have q2 : m q.1 = t := q2
        rw [← q2]
        exact (hmlt _ (W.trans s h1 q.1 q.2 q1).1).1
    · refine ⟨hmv (I.zero hpos), ?_, rfl, ?_⟩
      · intro q hq
        have hq : q < out.length := hq
        obtain ⟨p, p1, p2⟩ := I.onto q (by omega)
        exact ⟨p, p1, hmv p2⟩
      · intro p s hps
        have hp := (List.getElem?_eq_some_iff.1 hps).1
        obtain ⟨s', r1, r2⟩ := o3 (m p) s (by rw [(hmlt p hp).2]; exact hps)
        exact ⟨s', r1, r2.endState, r2.userId, r2.nextDfa, r2.eol, r2.goes⟩
    · show 0 < out.length
      have := (hmlt 0 hpos).1
      omega
    · show out.length ≤ d.states.length; omega
    · intro s' hs'
      obtain ⟨s, _, h⟩ := hback s' hs'
      exact ⟨h.id, h.pushPop, h.pushDfa⟩

theorem csmMinimiseLoop_spec {npos : Nat} : ∀ (fuel : Nat) {d : CDfa}, CWell npos d → 0 < d.states.length →
    d.states.length < fuel →
    ∃ d' m, csmMinimiseLoop npos fuel d = .ok d' ∧ CWell npos d' ∧ Merged npos d d' m ∧ NoTwins d' ∧
      d'.states.length ≤ d.states.length ∧
      (NoTwins d → d' = d) ∧ (¬ NoTwins d → Erased npos d') ∧ (Erased npos d → Erased npos d')
  | 0, d, _, _, h => by omega
  | fuel + 1, d, W, hp, hf => by
    obtain ⟨d1, m1, a1, a2, a3, a4, a5, a6⟩ := csmMinimiseDfa_spec W hp
    rw [csmMinimiseLoop, a1]
    simp only [bind, Except.bind]
    rcases a6 with ⟨rfl, hT⟩ | ⟨hl, hN, hE⟩
    · refine ⟨d1, m1, by simp, a2, a3, hT, Nat.le_refl _, fun _ => rfl, fun h => absurd hT h, id⟩
    · obtain ⟨d2, m2, b1, b2, b3, b4, b5, b6, b7, b8⟩ := csmMinimiseLoop_spec fuel a2 a4 (by omega)
      refine ⟨d2, m2 ∘ m1, ?_, b2, merged_comp W a2 a3 b3, b4, by omega, fun h => absurd h hN,
        fun _ => b8 hE, fun _ => b8 hE⟩
      rw [if_pos (by omega)]; exact b1

/-- Paths follow the merging. -/
theorem merged_path {npos : Nat} {d d' : CDfa} {m : Nat → Nat} (M : Merged npos d d' m) (W : CWell npos d)
    (w : List Nat) : ∀ (a b' : Nat), a < d.states.length →
    (CPath d' (m a) w b' ↔ ∃ b, CPath d a w b ∧ m b = b') := by
  induction w with
  | nil =>
    intro a b' _
    constructor
    · intro h; cases h; exact ⟨a, .nil _, rfl⟩
    · rintro ⟨b, h, rfl⟩; cases h; exact .nil _
  | cons c w ih =>
    intro a b' ha
    have hs := List.getElem?_eq_getElem ha
    obtain ⟨s', s1, _, _, _, _, s6⟩ := M.state a _ hs
    constructor
    · intro h
      cases h with
      | cons _ _ t' _ s _ hs' hg h =>
        have : s = s' := by rw [s1] at hs'; exact (Option.some.inj hs').symm
        subst this
        obtain ⟨t, t1, rfl⟩ := (s6 c t').mp hg
        have htl : t < d.states.length := by
          obtain ⟨set, hm, _⟩ := t1
          exact (W.trans _ (List.getElem_mem ha) t set hm).1
        obtain ⟨b, b1, b2⟩ := (ih t b' htl).mp h
        exact ⟨b, .cons a c t b _ w hs t1 b1, b2⟩
    · rintro ⟨b, h, rfl⟩
      cases h with
      | cons _ _ t _ s _ hs' hg h =>
        have : s = d.states[a] := by rw [hs] at hs'; exact (Option.some.inj hs').symm
        subst this
        have htl : t < d.states.length := by
          obtain ⟨set, hm, _⟩ := hg
          exact (W.trans _ (List.getElem_mem ha) t set hm).1
        exact .cons _ c (m t) _ s' w s1 ((s6 c _).mpr ⟨t, hg, rfl⟩) ((ih t _ htl).mpr ⟨b, h, rfl⟩)

end Lexertl.Csm
