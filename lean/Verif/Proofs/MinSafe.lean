import Verif.Proofs.Minimise
import Verif.Proofs.Safe

/-
Minimising keeps a machine fit for lookup.
-/
namespace Lexertl
open Spec

/-- The row of the new table comes from one of the old table: same length and, but for
row 0, same fields. -/
def OldRow (rows : List Row) (row' : Row) : Prop :=
  ∃ row ∈ rows, row'.length = row.length ∧ ∀ c < 5, row'[c]? = row[c]?

theorem mapIxs_length {lookup : List Nat} : ∀ {vs ws : List Nat}, mapIxs lookup vs = .ok ws → ws.length = vs.length
  | [], ws, h => by cases h; rfl
  | v :: vs, ws, h => by
    unfold mapIxs at h
    obtain ⟨w, _, h⟩ := bind_ok h
    obtain ⟨ws', h1, h⟩ := bind_ok h
    cases h
    simp [mapIxs_length h1]

theorem minRow_old {lookup : List Nat} {row row' : Row} (h : minRow lookup row = .ok row') :
    row'.length = row.length ∧ ∀ c < 5, row'[c]? = row[c]? := by
  unfold minRow at h
  split at h
  · obtain ⟨e, _, h⟩ := bind_ok h
    obtain ⟨ts', h1, h⟩ := bind_ok h
    cases h
    refine ⟨by simp [mapIxs_length h1], fun c hc => ?_⟩
    match c, hc with
    | 0, _ | 1, _ | 2, _ | 3, _ | 4, _ => rfl
  · cases h

theorem minRows_old {lookup set : List Nat} : ∀ {rs rs' : List Row} {i : Nat}, minRows lookup set rs i = .ok rs' →
    ∀ row' ∈ rs', OldRow rs row'
  | [], rs', i, h => by cases h; simp
  | r :: rs, rs', i, h => by
    unfold minRows at h
    split at h
    · intro row' hr
      obtain ⟨row, a, b⟩ := minRows_old h row' hr
      exact ⟨row, by simp [a], b⟩
    · obtain ⟨r', h1, h⟩ := bind_ok h
      obtain ⟨rs2, h2, h⟩ := bind_ok h
      cases h
      intro row' hr
      rcases List.mem_cons.1 hr with rfl | hr
      · exact ⟨r, by simp, minRow_old h1⟩
      · obtain ⟨row, a, b⟩ := minRows_old h2 row' hr
        exact ⟨row, by simp [a], b⟩

/-- What a pass keeps of the rows. -/
structure OldRows (rows rows' : List Row) : Prop where
  len : ∀ row' ∈ rows', ∃ row ∈ rows, row'.length = row.length
  old : ∀ row' ∈ rows'.drop 1, OldRow (rows.drop 1) row'

theorem OldRows.refl (rows : List Row) : OldRows rows rows :=
  ⟨fun r h => ⟨r, h, rfl⟩, fun r h => ⟨r, h, rfl, fun _ _ => rfl⟩⟩

theorem OldRows.comp {a b c : List Row} (h : OldRows a b) (g : OldRows b c) : OldRows a c := by
  refine ⟨fun r hr => ?_, fun r hr => ?_⟩
  · obtain ⟨s, s1, s2⟩ := g.len r hr
    obtain ⟨t, t1, t2⟩ := h.len s s1
    exact ⟨t, t1, s2.trans t2⟩
  · obtain ⟨s, s1, s2, s3⟩ := g.old r hr
    obtain ⟨t, t1, t2, t3⟩ := h.old s s1
    exact ⟨t, t1, s2.trans t2, fun c hc => (s3 c hc).trans (t3 c hc)⟩

theorem minimiseDfa_old {npos : Nat} {rows rows' : List Row} (h : minimiseDfa npos rows = .ok rows') :
    OldRows rows rows' := by
  unfold minimiseDfa at h
  split at h
  · cases h; exact .refl _
  · cases h
  · rename_i bol cells rest
    generalize minOuter npos rest 1 1 _ = o at h
    obtain ⟨lookup, set⟩ := o
    dsimp only at h
    split at h
    · cases h; exact .refl _
    · obtain ⟨b, rest', h1, rfl⟩ : ∃ b rest', minRows lookup set rest 1 = .ok rest' ∧
          rows' = (b :: cells) :: rest' := by
        split at h
        · obtain ⟨b, _, h⟩ := bind_ok h
          obtain ⟨rest', h1, h⟩ := bind_ok h
          cases h
          exact ⟨b, rest', h1, rfl⟩
        · obtain ⟨b, _, h⟩ := bind_ok h
          obtain ⟨rest', h1, h⟩ := bind_ok h
          cases h
          exact ⟨b, rest', h1, rfl⟩
      refine ⟨fun r hr => ?_, minRows_old h1⟩
      rcases List.mem_cons.1 hr with rfl | hr
      · exact ⟨bol :: cells, by simp, rfl⟩
      · obtain ⟨row, a, b, _⟩ := minRows_old h1 r hr
        exact ⟨row, by simp [a], b⟩

theorem minimiseLoop_old {npos : Nat} : ∀ {fuel : Nat} {rows rows' : List Row},
    minimiseLoop npos fuel rows = .ok rows' → OldRows rows rows'
  | 0, _, _, h => by cases h
  | fuel + 1, rows, rows', h => by
    unfold minimiseLoop at h
    obtain ⟨r1, h1, h⟩ := bind_ok h
    split at h
    · exact (minimiseDfa_old h1).comp (minimiseLoop_old h)
    · cases h; exact minimiseDfa_old h1

theorem minimiseAll_old {npos : Nat} : ∀ {as : List Nat} {dfas out : List (List Row)}, minimiseAll npos as dfas = .ok out →
    out.length = dfas.length ∧
    ∀ (i : Nat) rows', out[i]? = some rows' → ∃ rows, dfas[i]? = some rows ∧ OldRows rows rows'
  | as, [], out, h => by cases as <;> (cases h; simp)
  | [], _ :: _, out, h => by cases h
  | a :: as, rows :: dfas, out, h => by
    unfold minimiseAll at h
    have hr : ∃ r1 rest, OldRows rows r1 ∧ minimiseAll npos as dfas = .ok rest ∧ out = r1 :: rest := by
      split at h
      · obtain ⟨r1, h1, h⟩ := bind_ok h
        obtain ⟨rest, h2, h⟩ := bind_ok h
        cases h
        exact ⟨r1, rest, minimiseLoop_old h1, h2, rfl⟩
      · obtain ⟨r1, h1, h⟩ := bind_ok h
        obtain ⟨rest, h2, h⟩ := bind_ok h
        cases h
        cases h1
        exact ⟨_, rest, .refl _, h2, rfl⟩
    obtain ⟨r1, rest, h1, h2, rfl⟩ := hr
    obtain ⟨l, ih⟩ := minimiseAll_old h2
    refine ⟨by simp [l], fun i rows' hi => ?_⟩
    cases i with
    | zero => simp only [List.getElem?_cons_zero, Option.some.injEq] at hi; subst hi; exact ⟨rows, rfl, h1⟩
    | succ i => exact ih i rows' (by simpa using hi)

/-- Minimising a machine fit for lookup. -/
theorem minimise_machine {npos : Nat} {sm : Internals} (M : Machine npos sm) :
    ∃ sm', sm.minimise npos = .ok sm' ∧ Machine npos sm' ∧ SimSm npos sm sm' ∧
      sm'.dfa.length = sm.dfa.length ∧
      ∀ (i : Nat) (rows' : List Row), sm'.dfa[i]? = some rows' → ∃ rows, sm.dfa[i]? = some rows ∧
        rows'.length ≤ rows.length ∧ ∀ (k j : Nat), 1 ≤ k → k < j → j < rows'.length → rows'[k]? ≠ rows'[j]? := by
  obtain ⟨out, o1, o2, o3⟩ := minimiseAll_spec (npos := npos) sm.alphabet sm.lookup sm.dfa M.states.2 M.states.1
    (fun i a l rows _ hl hr => .inr (M.table i l rows hl hr).1)
  obtain ⟨_, old⟩ := minimiseAll_old o1
  -- every table
  have all : ∀ (i : Nat) l rows rows', sm.lookup[i]? = some l → sm.dfa[i]? = some rows → out[i]? = some rows' →
      ∃ m, Table npos ⟨l, rows'⟩ ∧ Sim npos ⟨l, rows⟩ ⟨l, rows'⟩ m ∧ rows'.length ≤ rows.length ∧
          ∀ (k : Nat) j, 1 ≤ k → k < j → j < rows'.length → rows'[k]? ≠ rows'[j]? := by
    intro i l rows rows' hl hr hr'
    have hi : i < sm.alphabet.length := by
      rw [M.states.2]; exact (List.getElem?_eq_some_iff.1 hr).1
    have ha : sm.alphabet[i]? = some sm.alphabet[i] := List.getElem?_eq_getElem hi
    obtain ⟨a, a7, aw, _⟩ := (M.table i l rows hl hr).1.width
    have two := (M.table i l rows hl hr).1.two
    dsimp only at a7 aw two
    have h0 : sm.alphabet[i] ≠ 0 := by
      have hm : rows[0] ∈ rows := List.getElem_mem (by omega)
      have h1 := aw _ hm
      have h2 := M.alphabet i _ rows ha hr _ hm
      omega
    rcases o3 i _ l rows ha hl hr with ⟨h, _⟩ | ⟨_, rows2, m, e, t⟩
    · exact absurd h h0
    · rw [hr'] at e
      cases e
      exact ⟨m, t⟩
  refine ⟨{ sm with dfa := out }, by rw [Internals.minimise, o1]; rfl, ⟨⟨?_, ?_⟩, ?_, ?_, ?_, ?_⟩, ⟨rfl, ?_⟩, o2, ?_⟩
  · show sm.lookup.length = out.length; rw [o2]; exact M.states.1
  · show sm.alphabet.length = out.length; rw [o2]; exact M.states.2
  · intro i l rows' hl hr'
    obtain ⟨rows, hr, _⟩ := old i rows' hr'
    obtain ⟨m, t, _⟩ := all i l rows rows' hl hr hr'
    exact ⟨t, (M.table i l rows hl hr).2⟩
  · intro i a rows' ha hr' row' hrow
    obtain ⟨rows, hr, o⟩ := old i rows' hr'
    obtain ⟨row, g1, g2⟩ := o.len row' hrow
    rw [g2]
    exact M.alphabet i a rows ha hr row g1
  · intro rows' hrows row' hrow e s he hs
    show _ ∨ s < out.length
    rw [o2]
    obtain ⟨i, hi⟩ := List.mem_iff_getElem?.1 hrows
    obtain ⟨rows, hr, o⟩ := old i rows' hi
    obtain ⟨row, g1, _, g2⟩ := o.old row' hrow
    rw [g2 _ (by decide)] at he hs
    exact M.next rows (List.mem_of_getElem? hr) row g1 e s he hs
  · intro rows' hrows row' hrow s hs
    show s = npos ∨ s < out.length
    rw [o2]
    obtain ⟨i, hi⟩ := List.mem_iff_getElem?.1 hrows
    obtain ⟨rows, hr, o⟩ := old i rows' hi
    obtain ⟨row, g1, _, g2⟩ := o.old row' hrow
    rw [g2 _ (by decide)] at hs
    exact M.push rows (List.mem_of_getElem? hr) row g1 s hs
  · intro i
    by_cases hi : i < sm.dfa.length
    · right
      have hr : sm.dfa[i]? = some sm.dfa[i] := List.getElem?_eq_getElem hi
      have hl : sm.lookup[i]? = some (sm.lookup[i]'(by rw [M.states.1]; exact hi)) := List.getElem?_eq_getElem _
      have hr' : out[i]? = some (out[i]'(by rw [o2]; exact hi)) := List.getElem?_eq_getElem _
      obtain ⟨m, _, t, _⟩ := all i _ _ _ hl hr hr'
      exact ⟨_, _, m, by rw [Internals.dfaAt, hl, hr], by simp only [Internals.dfaAt, hl, hr'], t⟩
    · left
      have hr : sm.dfa[i]? = none := List.getElem?_eq_none (by omega)
      have hr' : out[i]? = none := List.getElem?_eq_none (by omega)
      simp only [Internals.dfaAt, hr, hr']
  · intro i rows' hr'
    obtain ⟨rows, hr, _⟩ := old i rows' hr'
    have hl : sm.lookup[i]? = some (sm.lookup[i]'(by
      rw [M.states.1]; exact (List.getElem?_eq_some_iff.1 hr).1)) := List.getElem?_eq_getElem _
    obtain ⟨m, _, _, t⟩ := all i _ rows rows' hl hr hr'
    exact ⟨rows, hr, t⟩

end Lexertl
