import Verif.Spec.Csm
import Verif.Spec.Table
import Verif.Proofs.StringToken

/-
`sm_to_csm`: the char state machine has the states and transitions of the tables.
-/
namespace Lexertl.Csm
open Spec

/-- A transition in a map. -/
def GoesIn (m : List (Nat × Token)) (c t : Nat) : Prop := ∃ set, (t, set) ∈ m ∧ Mem c set

/-- All charsets of a map are in normal form. -/
def NormalIn (m : List (Nat × Token)) : Prop := ∀ p ∈ m, Normal p.2

theorem transAdd_spec (k : Nat) (tok : Token) (ht : Normal tok) : ∀ m : List (Nat × Token), NormalIn m →
    NormalIn (transAdd k tok m) ∧ (∀ c t, GoesIn (transAdd k tok m) c t ↔ GoesIn m c t ∨ (t = k ∧ Mem c tok)) ∧
    (∀ p ∈ transAdd k tok m, p.1 = k ∨ ∃ q ∈ m, q.1 = p.1)
  | [], _ => by
    refine ⟨?_, ?_, ?_⟩
    · intro p hp
      simp only [transAdd, List.mem_singleton] at hp
      subst hp; exact ht
    · intro c t
      simp only [GoesIn, transAdd, List.mem_singleton, Prod.mk.injEq, List.not_mem_nil, false_and, exists_false, false_or]
      constructor
      · rintro ⟨set, ⟨rfl, rfl⟩, h⟩; exact ⟨rfl, h⟩
      · rintro ⟨rfl, h⟩; exact ⟨tok, ⟨rfl, rfl⟩, h⟩
    · intro p hp
      simp only [transAdd, List.mem_singleton] at hp
      subst hp; exact .inl rfl
  | (k', t') :: m, hm => by
    have hm' : NormalIn m := fun p hp => hm p (by simp [hp])
    have ht' : Normal t' := hm (k', t') (by simp)
    have cons_goes : ∀ (q : Nat) (s : Token) (l : List (Nat × Token)) (c t : Nat),
        GoesIn ((q, s) :: l) c t ↔ (t = q ∧ Mem c s) ∨ GoesIn l c t := by
      intro q s l c t
      simp only [GoesIn, List.mem_cons, Prod.mk.injEq]
      constructor
      · rintro ⟨set, (⟨rfl, rfl⟩ | h), h2⟩
        · exact .inl ⟨rfl, h2⟩
        · exact .inr ⟨set, h, h2⟩
      · rintro (⟨rfl, h⟩ | ⟨set, h, h2⟩)
        · exact ⟨s, .inl ⟨rfl, rfl⟩, h⟩
        · exact ⟨set, .inr h, h2⟩
    rw [transAdd]
    by_cases h1 : k < k'
    · rw [if_pos h1]
      refine ⟨?_, ?_, ?_⟩
      · intro p hp
        rcases List.mem_cons.mp hp with rfl | hp
        · exact ht
        · exact hm p hp
      · intro c t
        rw [cons_goes]
        constructor
        · rintro (h | h)
          · exact .inr h
          · exact .inl h
        · rintro (h | h)
          · exact .inr h
          · exact .inl h
      · intro p hp
        rcases List.mem_cons.mp hp with rfl | hp
        · exact .inl rfl
        · exact .inr ⟨p, hp, rfl⟩
    · rw [if_neg h1]
      by_cases h2 : k = k'
      · subst h2
        rw [if_pos rfl]
        obtain ⟨n1, n2⟩ := Token.insertToken_spec t' tok ht' ht.1
        refine ⟨?_, ?_, ?_⟩
        · intro p hp
          rcases List.mem_cons.mp hp with rfl | hp
          · exact n1
          · exact hm' p hp
        · intro c t
          rw [cons_goes, cons_goes, n2]
          constructor
          · rintro (⟨rfl, h | h⟩ | h)
            · exact .inl (.inl ⟨rfl, h⟩)
            · exact .inr ⟨rfl, h⟩
            · exact .inl (.inr h)
          · rintro ((⟨rfl, h⟩ | h) | ⟨rfl, h⟩)
            · exact .inl ⟨rfl, .inl h⟩
            · exact .inr h
            · exact .inl ⟨rfl, .inr h⟩
        · intro p hp
          rcases List.mem_cons.mp hp with rfl | hp
          · exact .inl rfl
          · exact .inr ⟨p, by simp [hp], rfl⟩
      · rw [if_neg h2]
        obtain ⟨i1, i2, i3⟩ := transAdd_spec k tok ht m hm'
        refine ⟨?_, ?_, ?_⟩
        · intro p hp
          rcases List.mem_cons.mp hp with rfl | hp
          · exact ht'
          · exact i1 p hp
        · intro c t
          rw [cons_goes, cons_goes, i2]
          constructor
          · rintro (h | h | h)
            · exact .inl (.inl h)
            · exact .inl (.inr h)
            · exact .inr h
          · rintro ((h | h) | h)
            · exact .inl h
            · exact .inr (.inl h)
            · exact .inr (.inr h)
        · intro p hp
          rcases List.mem_cons.mp hp with rfl | hp
          · exact .inr ⟨(k', t'), by simp, rfl⟩
          · rcases i3 p hp with h | ⟨q, hq, he⟩
            · exact .inl h
            · exact .inr ⟨q, by simp [hq], he⟩

theorem csmTrans_spec (tokens : List Token) (hn : ∀ t ∈ tokens, Normal t) : ∀ (cells : List Nat) (col : Nat)
    (m : List (Nat × Token)), NormalIn m → col + cells.length ≤ tokens.length →
    ∃ m', csmTrans tokens cells col m = .ok m' ∧ NormalIn m' ∧
      (∀ c t, GoesIn m' c t ↔ GoesIn m c t ∨ ∃ j tok, cells[j]? = some (t + 1) ∧ tokens[col + j]? = some tok ∧ Mem c tok) ∧
      (∀ p ∈ m', (∃ q ∈ m, q.1 = p.1) ∨ ∃ j : Nat, cells[j]? = some (p.1 + 1))
  | [], col, m, hm, _ => ⟨m, rfl, hm, by simp, fun p hp => .inl ⟨p, hp, rfl⟩⟩
  | next :: cells, col, m, hm, hl => by
    rw [List.length_cons] at hl
    have succ : ∀ c t : Nat, (∃ j tok, (next :: cells)[j]? = some (t + 1) ∧ tokens[col + j]? = some tok ∧ Mem c tok) ↔
        (next = t + 1 ∧ ∃ tok, tokens[col]? = some tok ∧ Mem c tok) ∨
        ∃ j tok, cells[j]? = some (t + 1) ∧ tokens[col + 1 + j]? = some tok ∧ Mem c tok := by
      intro c t
      constructor
      · rintro ⟨j, tok, h1, h2, h3⟩
        cases j with
        | zero => exact .inl ⟨by simpa using h1, tok, h2, h3⟩
        | succ j => exact .inr ⟨j, tok, by simpa using h1, by rw [← h2]; congr 1; omega, h3⟩
      · rintro (⟨h1, tok, h2, h3⟩ | ⟨j, tok, h1, h2, h3⟩)
        · exact ⟨0, tok, by simp [h1], h2, h3⟩
        · exact ⟨j + 1, tok, by simpa using h1, by rw [← h2]; congr 1; omega, h3⟩
    rw [csmTrans]
    by_cases h : next > 0
    · have hlt : col < tokens.length := by omega
      rw [if_pos h, List.getElem?_eq_getElem hlt]
      obtain ⟨a1, a2, a3⟩ := transAdd_spec (next - 1) tokens[col] (hn _ (List.getElem_mem hlt)) m hm
      obtain ⟨m', b1, b2, b3, b4⟩ := csmTrans_spec tokens hn cells (col + 1) _ a1 (by omega)
      refine ⟨m', b1, b2, ?_, ?_⟩
      · intro c t
        rw [b3, a2, succ, List.getElem?_eq_getElem hlt]
        simp only [Option.some.injEq, exists_eq_left']
        constructor
        · rintro ((h1 | ⟨h1, h2⟩) | h1)
          · exact .inl h1
          · exact .inr (.inl ⟨by omega, h2⟩)
          · exact .inr (.inr h1)
        · rintro (h1 | ⟨h1, h2⟩ | h1)
          · exact .inl (.inl h1)
          · exact .inl (.inr ⟨by omega, h2⟩)
          · exact .inr h1
      · intro p hp
        rcases b4 p hp with ⟨q, hq, he⟩ | ⟨j, hj⟩
        · rcases a3 q hq with hk | ⟨q', hq', he'⟩
          · exact .inr ⟨0, by simp; omega⟩
          · exact .inl ⟨q', hq', he'.trans he⟩
        · exact .inr ⟨j + 1, by simpa using hj⟩
    · rw [if_neg h]
      obtain ⟨m', b1, b2, b3, b4⟩ := csmTrans_spec tokens hn cells (col + 1) m hm (by omega)
      refine ⟨m', b1, b2, ?_, ?_⟩
      · intro c t
        rw [b3, succ]
        constructor
        · rintro (h1 | h1)
          · exact .inl h1
          · exact .inr (.inr h1)
        · rintro (h1 | ⟨h1, _⟩ | h1)
          · exact .inl h1
          · omega
          · exact .inr h1
      · intro p hp
        rcases b4 p hp with h | ⟨j, hj⟩
        · exact .inl h
        · exact .inr ⟨j + 1, by simpa using hj⟩

theorem csmTokens_spec : ∀ (cols : List Nat) (c : Nat) (tokens : List Token), (∀ t ∈ tokens, Normal t) →
    (∀ col ∈ cols, col < ixTransitions + tokens.length) →
    ∃ out, csmTokens cols c tokens = .ok out ∧ out.length = tokens.length ∧ (∀ t ∈ out, Normal t) ∧
      ∀ (k : Nat) tok, tokens[k]? = some tok → ∃ tok', out[k]? = some tok' ∧
        ∀ x, Mem x tok' ↔ Mem x tok ∨ ∃ j : Nat, cols[j]? = some (ixTransitions + k) ∧ x = c + j
  | [], c, tokens, hn, _ => ⟨tokens, rfl, rfl, hn, fun k tok h => ⟨tok, h, by simp⟩⟩
  | col :: cols, c, tokens, hn, hc => by
    have succ : ∀ x k : Nat, (∃ j : Nat, (col :: cols)[j]? = some (ixTransitions + k) ∧ x = c + j) ↔
        (col = ixTransitions + k ∧ x = c) ∨ ∃ j : Nat, cols[j]? = some (ixTransitions + k) ∧ x = c + 1 + j := by
      intro x k
      constructor
      · rintro ⟨j, h1, h2⟩
        cases j with
        | zero => exact .inl ⟨by simpa using h1, by omega⟩
        | succ j => exact .inr ⟨j, by simpa using h1, by omega⟩
      · rintro (⟨h1, h2⟩ | ⟨j, h1, h2⟩)
        · exact ⟨0, by simp [h1], by omega⟩
        · exact ⟨j + 1, by simpa using h1, by omega⟩
    rw [csmTokens]
    by_cases h : col ≥ ixTransitions
    · rw [if_pos h]
      have hcl := hc col (by simp)
      have hlt : col - ixTransitions < tokens.length := by omega
      rw [List.getElem?_eq_getElem hlt]
      simp only
      have hnt := hn _ (List.getElem_mem hlt)
      have hin := Token.insert_normal tokens[col - ixTransitions] (c, c) hnt (Nat.le_refl _)
      have hmem := Token.mem_insert tokens[col - ixTransitions] (c, c) hnt (Nat.le_refl _)
      obtain ⟨out, o1, o2, o3, o4⟩ := csmTokens_spec cols (c + 1)
        (tokens.set (col - ixTransitions) (Token.insert tokens[col - ixTransitions] (c, c)))
        (by
          intro t ht
          rcases List.mem_or_eq_of_mem_set ht with ht | rfl
          · exact hn t ht
          · exact hin)
        (by
          intro d hd
          rw [List.length_set]
          exact hc d (by simp [hd]))
      rw [List.length_set] at o2
      refine ⟨out, o1, o2, o3, ?_⟩
      intro k tok hk
      by_cases hkc : k = col - ixTransitions
      · have hk' : (tokens.set (col - ixTransitions) (Token.insert tokens[col - ixTransitions] (c, c)))[k]? =
            some (Token.insert tokens[col - ixTransitions] (c, c)) := by
          rw [hkc]; exact List.getElem?_set_self hlt
        obtain ⟨tok', t1, t2⟩ := o4 k _ hk'
        refine ⟨tok', t1, fun x => ?_⟩
        have : tok = tokens[col - ixTransitions] := by
          subst hkc
          rw [List.getElem?_eq_getElem hlt] at hk
          exact (Option.some.inj hk).symm
        rw [t2, hmem, succ, this]
        constructor
        · rintro ((h1 | h1) | h1)
          · exact .inl h1
          · exact .inr (.inl ⟨by omega, by simp only at h1; omega⟩)
          · exact .inr (.inr h1)
        · rintro (h1 | ⟨_, h1⟩ | h1)
          · exact .inl (.inl h1)
          · exact .inl (.inr (by simp only; omega))
          · exact .inr h1
      · have hk' : (tokens.set (col - ixTransitions) (Token.insert tokens[col - ixTransitions] (c, c)))[k]? = some tok := by
          rw [List.getElem?_set_ne (fun h => hkc h.symm)]; exact hk
        obtain ⟨tok', t1, t2⟩ := o4 k _ hk'
        refine ⟨tok', t1, fun x => ?_⟩
        rw [t2, succ]
        constructor
        · rintro (h1 | h1)
          · exact .inl h1
          · exact .inr (.inr h1)
        · rintro (h1 | ⟨h1, _⟩ | h1)
          · exact .inl h1
          · omega
          · exact .inr h1
    · rw [if_neg h]
      obtain ⟨out, o1, o2, o3, o4⟩ := csmTokens_spec cols (c + 1) tokens hn (fun d hd => hc d (by simp [hd]))
      refine ⟨out, o1, o2, o3, ?_⟩
      intro k tok hk
      obtain ⟨tok', t1, t2⟩ := o4 k tok hk
      refine ⟨tok', t1, fun x => ?_⟩
      rw [t2, succ]
      constructor
      · rintro (h1 | h1)
        · exact .inl h1
        · exact .inr (.inr h1)
      · rintro (h1 | ⟨h1, _⟩ | h1)
        · exact .inl h1
        · omega
        · exact .inr h1

/-- The state made from a row: `l` is the character table. -/
structure Conv (npos : Nat) (l : List Nat) (row : Row) (s : CState) : Prop where
  same : SameState npos row s
  goes : ∀ c t, s.Goes c t ↔ ∃ col, l[c]? = some col ∧ col ≥ ixTransitions ∧ row[col]? = some (t + 1)
  normal : NormalIn s.transitions
  keys : ∀ p ∈ s.transitions, ∃ col, col ≥ ixTransitions ∧ row[col]? = some (p.1 + 1)

theorem seven {row : Row} (h : 7 ≤ row.length) :
    ∃ e id uid push next eol dead cells, row = e :: id :: uid :: push :: next :: eol :: dead :: cells := by
  match row, h with
  | e :: id :: uid :: push :: next :: eol :: dead :: cells, _ => exact ⟨e, id, uid, push, next, eol, dead, cells, rfl⟩
  | [], h | [_], h | [_, _], h | [_, _, _], h | [_, _, _, _], h | [_, _, _, _, _], h | [_, _, _, _, _, _], h =>
    simp at h

theorem csmState_spec {npos : Nat} {l : List Nat} {tokens : List Token} {row : Row}
    (hn : ∀ t ∈ tokens, Normal t) (hlen : row.length = ixTransitions + tokens.length)
    (ht : ∀ (k : Nat) tok, tokens[k]? = some tok → ∀ c, Mem c tok ↔ l[c]? = some (ixTransitions + k)) :
    ∃ s, csmState npos tokens row = .ok s ∧ Conv npos l row s := by
  obtain ⟨e, id, uid, push, next, eol, dead, cells, rfl⟩ := seven (by simp only [ixTransitions] at hlen; omega : 7 ≤ row.length)
  have hcl : cells.length = tokens.length := by
    simp only [List.length_cons, ixTransitions] at hlen; omega
  obtain ⟨m, h1, h2, h3, h4⟩ := csmTrans_spec tokens hn cells 0 [] (by intro p hp; simp at hp) (by omega)
  refine ⟨⟨decide (e ≠ 0), if push ≠ npos then .push else if hasBit e bitPop then .pop else .neither,
    id, uid, push, next, if eol ≠ 0 then eol - 1 else npos, m⟩, ?_, ?_, ?_, h2, ?_⟩
  · simp only [csmState, h1, bind, Except.bind]
  · refine ⟨⟨e, rfl, by simp⟩, rfl, rfl, rfl, rfl, ⟨eol, rfl, ?_⟩, ⟨e, rfl, ?_⟩, ?_⟩
    · by_cases h : eol = 0
      · left; simp [h]
      · right; simp [h]; omega
    · by_cases hp : push = npos
      · cases hb : hasBit e bitPop <;> simp [hp]
      · simp [hp]
    · by_cases hp : push = npos
      · cases hb : hasBit e bitPop <;> simp [hp]
      · simp [hp]
  · intro c t
    show GoesIn m c t ↔ _
    rw [h3]
    simp only [GoesIn, List.not_mem_nil, false_and, exists_false, false_or, Nat.zero_add]
    constructor
    · rintro ⟨j, tok, a, b, d⟩
      exact ⟨ixTransitions + j, (ht j tok b c).mp d, by omega, by
        rw [show ixTransitions + j = j + 7 by simp only [ixTransitions]; omega]; simpa using a⟩
    · rintro ⟨col, a, b, d⟩
      obtain ⟨j, rfl⟩ : ∃ j, col = ixTransitions + j := ⟨col - ixTransitions, by omega⟩
      rw [show ixTransitions + j = j + 7 by simp only [ixTransitions]; omega] at d
      have d : cells[j]? = some (t + 1) := by simpa using d
      have hj : j < tokens.length := hcl ▸ (List.getElem?_eq_some_iff.mp d).1
      exact ⟨j, tokens[j], d, List.getElem?_eq_getElem hj, (ht j _ (List.getElem?_eq_getElem hj) c).mpr a⟩
  · intro p hp
    rcases h4 p hp with ⟨q, hq, _⟩ | ⟨j, hj⟩
    · simp at hq
    · exact ⟨j + 7, by simp only [ixTransitions]; omega, by simpa using hj⟩

theorem csmStates_spec {npos : Nat} {l : List Nat} {tokens : List Token}
    (hn : ∀ t ∈ tokens, Normal t)
    (ht : ∀ (k : Nat) tok, tokens[k]? = some tok → ∀ c, Mem c tok ↔ l[c]? = some (ixTransitions + k)) :
    ∀ rows : List Row, (∀ row ∈ rows, row.length = ixTransitions + tokens.length) →
    ∃ ss, csmStates npos tokens rows = .ok ss ∧ ss.length = rows.length ∧
      ∀ (k : Nat) row s, rows[k]? = some row → ss[k]? = some s → Conv npos l row s
  | [], _ => ⟨[], rfl, rfl, by simp⟩
  | row :: rows, h => by
    obtain ⟨s, s1, s2⟩ := csmState_spec (npos := npos) hn (h row (by simp)) ht
    obtain ⟨ss, r1, r2, r3⟩ := csmStates_spec (npos := npos) hn ht rows (fun r hr => h r (by simp [hr]))
    refine ⟨s :: ss, by simp only [csmStates, s1, r1, bind, Except.bind], by simp [r2], ?_⟩
    intro k row' s' h1 h2
    cases k with
    | zero =>
      simp only [List.getElem?_cons_zero, Option.some.injEq] at h1 h2
      subst h1 h2; exact s2
    | succ k => exact r3 k row' s' (by simpa using h1) (by simpa using h2)

/-- A lexer state and the char machine made from it. -/
structure ConvDfa (npos : Nat) (l : List Nat) (rows : List Row) (d : CDfa) : Prop where
  size : d.states.length + 1 = rows.length
  bol : ∃ row b, rows[0]? = some row ∧ row[0]? = some b ∧ ((b = 0 ∧ d.bol = npos) ∨ (b ≠ 0 ∧ d.bol + 1 = b))
  state : ∀ (k : Nat) s, d.states[k]? = some s → ∃ row, rows[k + 1]? = some row ∧ Conv npos l row s

theorem csmDfa_spec {npos : Nat} {l : List Nat} {a : Nat} {rows : List Row}
    (T : Table npos ⟨l, rows⟩) (h256 : l.length = 256) (ha : ∀ row ∈ rows, row.length = a) :
    ∃ d, csmDfa npos l a rows = .ok [d] ∧ ConvDfa npos l rows d := by
  obtain ⟨row0, b, b1, b2, b3⟩ := T.bol
  obtain ⟨a', a7, aw, al⟩ := T.width
  have two : 2 ≤ rows.length := T.two
  have haa : a = a' := by
    have hm := List.mem_of_getElem? b1
    rw [← ha _ hm, ← aw _ hm]
  subst haa
  have hcols : ∀ col ∈ l.take 256, col < ixTransitions + (List.replicate (a - ixTransitions) ([] : Token)).length := by
    intro col hc
    have := (al col (List.mem_of_mem_take hc)).2
    simp only [List.length_replicate, ixTransitions]
    omega
  obtain ⟨tokens, t1, t2, t3, t4⟩ := csmTokens_spec (l.take 256) 0 (List.replicate (a - ixTransitions) [])
    (by intro t ht; rw [List.eq_of_mem_replicate ht]; exact Token.normal_nil) hcols
  rw [List.length_replicate] at t2
  have htk : ∀ (k : Nat) tok, tokens[k]? = some tok → ∀ c, Mem c tok ↔ l[c]? = some (ixTransitions + k) := by
    intro k tok hk c
    have hlt : k < a - ixTransitions := t2 ▸ (List.getElem?_eq_some_iff.mp hk).1
    obtain ⟨tok', u1, u2⟩ := t4 k [] (by rw [List.getElem?_replicate, if_pos hlt])
    have : tok' = tok := by rw [hk] at u1; exact (Option.some.inj u1).symm
    subst this
    rw [u2]
    have hnil : ¬ Mem c ([] : Token) := Token.mem_nil c
    simp only [hnil, false_or, Nat.zero_add]
    rw [List.take_of_length_le (by omega)]
    constructor
    · rintro ⟨j, h1, rfl⟩; exact h1
    · intro h; exact ⟨c, h, rfl⟩
  have hal : ixTransitions ≤ a := a7
  match rows, b1, two with
  | row0' :: rest, b1, _ =>
    have hr0 : row0' = row0 := by simpa using b1
    subst hr0
    match row0', b2 with
    | x :: xs, b2 =>
      have hx : x = b := by simpa using b2
      subst hx
      obtain ⟨ss, s1, s2, s3⟩ := csmStates_spec (npos := npos) t3 htk rest (by
        intro row hr
        rw [ha row (by simp [hr]), t2]
        omega)
      refine ⟨⟨if x ≠ 0 then x - 1 else npos, ss⟩, ?_, ?_⟩
      · rw [csmDfa, if_neg (by omega), if_neg (by omega), if_neg (by omega)]
        simp only [t1, csmAppend, s1, bind, Except.bind]
      · refine ⟨by simp [s2], ⟨x :: xs, x, rfl, rfl, ?_⟩, ?_⟩
        · by_cases h : x = 0
          · left; simp [h]
          · right; simp [h]; omega
        · intro k s hs
          simp only at hs
          have hlt : k < rest.length := s2 ▸ (List.getElem?_eq_some_iff.mp hs).1
          exact ⟨rest[k], by simp [List.getElem?_eq_getElem hlt], s3 k _ s (List.getElem?_eq_getElem hlt) hs⟩

theorem csmDfas_spec {npos : Nat} : ∀ (ls : List (List Nat)) (as : List Nat) (dfas : List (List Row)),
    ls.length = dfas.length → as.length = dfas.length →
    (∀ (i : Nat) l rows, ls[i]? = some l → dfas[i]? = some rows → Table npos ⟨l, rows⟩ ∧ l.length = 256) →
    (∀ (i a : Nat) rows, as[i]? = some a → dfas[i]? = some rows → ∀ row ∈ rows, row.length = a) →
    ∃ ds, csmDfas npos ls as dfas = .ok ds ∧ ds.length = dfas.length ∧
      ∀ (i : Nat) l rows d, ls[i]? = some l → dfas[i]? = some rows → ds[i]? = some d → ConvDfa npos l rows d
  | ls, as, [], h1, h2, _, _ => by
    refine ⟨[], ?_, rfl, by simp⟩
    cases ls <;> cases as <;> simp_all [csmDfas]
  | [], _, _ :: _, h1, _, _, _ => by simp at h1
  | _ :: _, [], _ :: _, _, h2, _, _ => by simp at h2
  | l :: ls, a :: as, rows :: rest, h1, h2, hT, hA => by
    obtain ⟨hT0, hl0⟩ := hT 0 l rows rfl rfl
    obtain ⟨d, d1, d2⟩ := csmDfa_spec hT0 hl0 (hA 0 a rows rfl rfl)
    obtain ⟨ds, e1, e2, e3⟩ := csmDfas_spec ls as rest (by simpa using h1) (by simpa using h2)
      (fun i l r x y => hT (i + 1) l r (by simpa using x) (by simpa using y))
      (fun i a r x y => hA (i + 1) a r (by simpa using x) (by simpa using y))
    refine ⟨d :: ds, by simp only [csmDfas, d1, e1, bind, Except.bind, List.cons_append, List.nil_append], by simp [e2], ?_⟩
    intro i l' rows' d' x y z
    cases i with
    | zero =>
      simp only [List.getElem?_cons_zero, Option.some.injEq] at x y z
      subst x y z; exact d2
    | succ i => exact e3 i l' rows' d' (by simpa using x) (by simpa using y) (by simpa using z)

/-- The char machine of a table is a machine whose states exist. -/
theorem ConvDfa.well {npos : Nat} {l : List Nat} {rows : List Row} {d : CDfa}
    (T : Table npos ⟨l, rows⟩) (C : ConvDfa npos l rows d) : CWell npos d := by
  have hsz := C.size
  have few : rows.length ≤ npos := T.few
  obtain ⟨row0, b, b1, b2, b3⟩ := T.bol
  obtain ⟨row0', b', c1, c2, c3⟩ := C.bol
  have hb : b' = b := by
    have hr : row0' = row0 := by
      have b1 : rows[0]? = some row0 := b1
      rw [c1] at b1; exact Option.some.inj b1
    subst hr
    rw [c2] at b2; exact Option.some.inj b2
  subst hb
  have b3 : b' < rows.length := b3
  refine ⟨by omega, by omega, ?_, ?_⟩
  · intro s hs
    obtain ⟨k, hk⟩ := List.mem_iff_getElem?.mp hs
    obtain ⟨row, r1, r2⟩ := C.state k s hk
    obtain ⟨e, e1, e2⟩ := r2.same.eol
    have he : e < rows.length := T.eol (k + 1) row e (by omega) r1 e1
    omega
  · intro s hs t set ht
    obtain ⟨k, hk⟩ := List.mem_iff_getElem?.mp hs
    obtain ⟨row, r1, r2⟩ := C.state k s hk
    refine ⟨?_, r2.normal _ ht⟩
    obtain ⟨col, h1, h2⟩ := r2.keys _ ht
    have : t + 1 < rows.length := T.trans (k + 1) row col (t + 1) (by omega) r1 h1 h2
    omega

/-- Paths correspond. -/
theorem ConvDfa.path {npos : Nat} {l : List Nat} {rows : List Row} {d : CDfa}
    (T : Table npos ⟨l, rows⟩) (C : ConvDfa npos l rows d) (w : List Nat) : ∀ a b : Nat, a < d.states.length →
    (CPath d a w b ↔ TPath l rows (a + 1) w (b + 1)) := by
  have hsz := C.size
  have W := C.well T
  obtain ⟨wd, _, _, al⟩ := T.width
  induction w with
  | nil =>
    intro a b ha
    constructor
    · intro h; cases h; exact .nil _
    · intro h
      generalize hx : a + 1 = x at h
      generalize hy : b + 1 = y at h
      cases h
      have : a = b := by omega
      subst this; exact .nil _
  | cons c w ih =>
    intro a b ha
    have hs : d.states[a]? = some d.states[a] := List.getElem?_eq_getElem ha
    obtain ⟨row, r1, r2⟩ := C.state a _ hs
    constructor
    · intro h
      cases h with
      | cons _ _ t _ s _ hs' hg h =>
        have : s = d.states[a] := by rw [hs] at hs'; exact (Option.some.inj hs').symm
        subst this
        obtain ⟨col, h1, h2, h3⟩ := (r2.goes c t).mp hg
        obtain ⟨set, hm, _⟩ := hg
        have ht := (W.trans _ (List.getElem_mem ha) t set hm).1
        exact .cons _ c col (t + 1) _ row w r1 h1 h3 (by omega) ((ih t b ht).mp h)
    · intro h
      generalize hx : a + 1 = x at h
      cases h with
      | cons _ _ col t _ row' _ hr hl hc ht h =>
        subst hx
        have : row' = row := by rw [r1] at hr; exact (Option.some.inj hr).symm
        subst this
        obtain ⟨t, rfl⟩ : ∃ u, t = u + 1 := ⟨t - 1, by omega⟩
        have hcol : col ≥ ixTransitions := by
          have h6 := (al col (List.mem_of_getElem? hl)).1
          rcases Nat.lt_or_eq_of_le h6 with h | h
          · exact h
          · subst h
            have := T.dead (a + 1) row' (t + 1) (by omega) r1 hc
            omega
        have hg := (r2.goes c t).mpr ⟨col, hl, hcol, hc⟩
        have ht2 : t < d.states.length := by
          obtain ⟨set, hm, _⟩ := hg
          exact (W.trans _ (List.getElem_mem ha) t set hm).1
        exact .cons a c t b _ w hs hg ((ih t b ht2).mpr h)

end Lexertl.Csm
