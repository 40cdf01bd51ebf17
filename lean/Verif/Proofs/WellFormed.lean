import Verif.Proofs.Ends
import Verif.Spec.Table

/-
Every table the generator makes is fit for lookup, whatever the rules are.
-/
namespace Lexertl
open Spec

/-- All row numbers in the table are below `n`; `T` is what is known of pop flags, push
and next states. -/
structure RowsOk (T : Bool → Nat → Nat → Prop) (size n : Nat) (rows : List Row) : Prop where
  width : ∀ row ∈ rows, row.length = size
  num : ∀ (p : Nat) (row : Row) (c e : Nat), rows[p]? = some row → row[c]? = some e → c = 5 ∨ 6 < c → e < n
  dead : ∀ (p : Nat) (row : Row) (e : Nat), rows[p]? = some row → row[6]? = some e → e = 0
  bol : ∃ (row : Row) (b : Nat), rows[0]? = some row ∧ row[0]? = some b ∧ b < n
  tgt : ∀ (p : Nat) (row : Row) (x a b : Nat), 0 < p → rows[p]? = some row → row[0]? = some x → row[3]? = some a →
    row[4]? = some b → T (hasBit x bitPop) a b

namespace RowsOk
variable {T : Bool → Nat → Nat → Prop} {size n : Nat} {rows rows' : List Row}

theorem mono (R : RowsOk T size n rows) {m : Nat} (h : n ≤ m) : RowsOk T size m rows :=
  ⟨R.width, fun p row c e h1 h2 h3 => Nat.lt_of_lt_of_le (R.num p row c e h1 h2 h3) h, R.dead,
    let ⟨r, b, h1, h2, h3⟩ := R.bol; ⟨r, b, h1, h2, Nat.lt_of_lt_of_le h3 h⟩, R.tgt⟩

theorem setCell (R : RowsOk T size n rows) {p c v : Nat} (hv : v < n)
    (hc : c = 5 ∨ 6 < c ∨ p = 0 ∧ c = 0) (h : setCell rows p c v = .ok rows') :
    RowsOk T size n rows' ∧ rows'.length = rows.length := by
  unfold Lexertl.setCell at h
  split at h
  · cases h
  · rename_i r hr
    split at h
    · rename_i hcl
      cases h
      have hp := (List.getElem?_eq_some_iff.1 hr).1
      have key : ∀ (q : Nat) (row : Row), (rows.set p (r.set c v))[q]? = some row →
          ∃ (old : Row), rows[q]? = some old ∧ row.length = old.length ∧
            ∀ (k e : Nat), row[k]? = some e → old[k]? = some e ∨ q = p ∧ k = c ∧ e = v := by
        intro q row hq
        by_cases hqp : q = p
        · subst hqp
          rw [List.getElem?_set_self hp] at hq
          cases hq
          refine ⟨r, hr, by simp, ?_⟩
          intro k e hk
          by_cases hkc : k = c
          · subst hkc
            rw [List.getElem?_set_self hcl] at hk
            exact .inr ⟨rfl, rfl, (Option.some.inj hk).symm⟩
          · rw [List.getElem?_set_ne (fun h => hkc h.symm)] at hk
            exact .inl hk
        · rw [List.getElem?_set_ne (fun h => hqp h.symm)] at hq
          exact ⟨row, hq, rfl, fun k e hk => .inl hk⟩
      refine ⟨⟨?_, ?_, ?_, ?_, ?_⟩, by simp⟩
      · intro row hrow
        obtain ⟨q, hq⟩ := List.mem_iff_getElem?.1 hrow
        obtain ⟨old, o1, o2, _⟩ := key q row hq
        rw [o2]; exact R.width old (List.mem_of_getElem? o1)
      · intro q row k e hq hk hk'
        obtain ⟨old, o1, _, o3⟩ := key q row hq
        rcases o3 k e hk with h | ⟨_, _, h⟩
        · exact R.num q old k e o1 h hk'
        · rw [h]; exact hv
      · intro q row e hq hk
        obtain ⟨old, o1, _, o3⟩ := key q row hq
        rcases o3 6 e hk with h | ⟨_, h, _⟩
        · exact R.dead q old e o1 h
        · omega
      · obtain ⟨row, b, b1, b2, b3⟩ := R.bol
        have h0 : 0 < rows.length := (List.getElem?_eq_some_iff.1 b1).1
        have h1 : (rows.set p (r.set c v))[0]? = some ((rows.set p (r.set c v))[0]'(by simpa using h0)) :=
          List.getElem?_eq_getElem _
        obtain ⟨old, o1, o2, o3⟩ := key 0 _ h1
        rw [b1] at o1
        cases o1
        have hl : 0 < ((rows.set p (r.set c v))[0]'(by simpa using h0)).length := by
          rw [o2]; exact (List.getElem?_eq_some_iff.1 b2).1
        refine ⟨_, _, h1, List.getElem?_eq_getElem hl, ?_⟩
        rcases o3 0 _ (List.getElem?_eq_getElem hl) with h | ⟨_, _, h⟩
        · rw [b2] at h
          rw [← Option.some.inj h]; exact b3
        · rw [h]; exact hv
      · intro q row x a b hq0 hq hx ha hb
        obtain ⟨old, o1, _, o3⟩ := key q row hq
        refine R.tgt q old x a b hq0 o1 ?_ ?_ ?_
        · rcases o3 0 x hx with h | ⟨_, h, _⟩
          · exact h
          · omega
        · rcases o3 3 a ha with h | ⟨_, h, _⟩
          · exact h
          · omega
        · rcases o3 4 b hb with h | ⟨_, h, _⟩
          · exact h
          · omega
    · cases h

theorem getCell (R : RowsOk T size n rows) {p c e : Nat} (hc : c = 5 ∨ 6 < c)
    (h : getCell rows p c = .ok e) : e < n := by
  obtain ⟨row, h1, h2⟩ := getCell_ok h
  exact R.num p row c e h1 h2 hc

theorem snoc (R : RowsOk T size n rows) {row : Row} (hl : row.length = size)
    (h0 : ∀ (c : Nat) e, 5 ≤ c → row[c]? = some e → e = 0)
    (ht : ∀ x a b, row[0]? = some x → row[3]? = some a → row[4]? = some b → T (hasBit x bitPop) a b) : RowsOk T size n (rows ++ [row]) := by
  obtain ⟨r0, b, b1, b2, b3⟩ := R.bol
  have h00 : 0 < rows.length := (List.getElem?_eq_some_iff.1 b1).1
  have key : ∀ (q : Nat) r, (rows ++ [row])[q]? = some r → rows[q]? = some r ∨ r = row := by
    intro q r hq
    rcases Nat.lt_or_ge q rows.length with h | h
    · rw [List.getElem?_append_left h] at hq; exact .inl hq
    · rw [List.getElem?_append_right h] at hq
      exact .inr (List.mem_singleton.1 (List.mem_of_getElem? hq))
  refine ⟨?_, ?_, ?_, ⟨r0, b, by rw [List.getElem?_append_left h00]; exact b1, b2, b3⟩, ?_⟩
  · intro r hr
    rcases List.mem_append.1 hr with h | h
    · exact R.width r h
    · rw [List.mem_singleton.1 h]; exact hl
  · intro q r c e hq hc hc'
    rcases key q r hq with h | rfl
    · exact R.num q r c e h hc hc'
    · rw [h0 c e (by omega) hc]; omega
  · intro q r e hq hc
    rcases key q r hq with h | rfl
    · exact R.dead q r e h hc
    · exact h0 6 e (by omega) hc
  · intro q r x a b' hq0 hq hx ha hb
    rcases key q r hq with h | rfl
    · exact R.tgt q r x a b' hq0 h hx ha hb
    · exact ht x a b' hx ha hb

theorem zero (h7 : 7 ≤ size) : RowsOk T size 1 [List.replicate size 0] := by
  refine ⟨by simp, ?_, ?_, ⟨_, 0, rfl, ?_, by omega⟩, ?_⟩
  · intro p row c e hp hc _
    have := List.mem_singleton.1 (List.mem_of_getElem? hp)
    subst this
    rw [List.getElem?_replicate] at hc
    split at hc
    · cases hc; omega
    · cases hc
  · intro p row e hp hc
    have := List.mem_singleton.1 (List.mem_of_getElem? hp)
    subst this
    rw [List.getElem?_replicate] at hc
    split at hc
    · cases hc; rfl
    · cases hc
  · rw [List.getElem?_replicate, if_pos (by omega)]
  · intro p row x a b hp hr
    have := (List.getElem?_eq_some_iff.1 hr).1
    simp at this
    omega

theorem zeros (R : RowsOk T size n rows) (T0 : T false 0 0) : RowsOk T size n (rows ++ [List.replicate size 0]) := by
  refine R.snoc (by simp) ?_ ?_
  · intro c e _ h
    rw [List.getElem?_replicate] at h
    split at h
    · cases h; rfl
    · cases h
  · intro x a b hx ha hb
    rw [List.getElem?_replicate] at hx ha hb
    split at hb
    · rw [if_pos (by omega)] at hx ha
      cases hx; cases ha; cases hb; exact T0
    · cases hb

end RowsOk

/-- What is known of the next and push states of the end nodes. -/
def EndsOk (T : Bool → Nat → Nat → Prop) : NodeData → Prop
  | .leaf _ _ => True
  | .fin _ _ _ nextDfa pushDfa popDfa _ => T popDfa pushDfa nextDfa

variable {T : Bool → Nat → Nat → Prop}

theorem newRow_spec {size : Nat} (h7 : 7 ≤ size) (T0 : T false 0 0) {e : Option NodeData} (he : ∀ d, e = some d → EndsOk T d) :
    (newRow size e).length = size ∧ (∀ (c : Nat) v, 5 ≤ c → (newRow size e)[c]? = some v → v = 0) ∧
    (∀ x a b, (newRow size e)[0]? = some x → (newRow size e)[3]? = some a → (newRow size e)[4]? = some b →
      T (hasBit x bitPop) a b) := by
  unfold newRow
  split
  · rename_i id userId u next push pop g
    refine ⟨by simp; omega, ?_, ?_⟩
    · intro c v hc hv
      rw [List.getElem?_append_right (by simpa using hc)] at hv
      exact List.eq_of_mem_replicate (List.mem_of_getElem? hv)
    · intro x a b hx ha hb
      simp only [List.cons_append, List.getElem?_cons_succ, List.getElem?_cons_zero, Option.some.injEq] at hx ha hb
      subst hx ha hb
      have : hasBit (bitEnd + (if g ≠ .no then bitGreedy else 0) + (if pop then bitPop else 0)) bitPop = pop := by
        cases pop <;> cases g <;> decide
      rw [this]
      exact he _ rfl
  · refine ⟨by simp, ?_, ?_⟩
    · intro c v hc hv
      rw [List.getElem?_replicate] at hv
      split at hv
      · cases hv; rfl
      · cases hv
    · intro x a b hx ha hb
      rw [List.getElem?_replicate, if_pos (by omega)] at hx ha hb
      cases hx; cases ha; cases hb; exact T0

theorem firstEnd_ends {h : Heap} (H : HeapAll (EndsOk T) h) (v : List Nat) {e : Option NodeData}
    (he : firstEnd h v = .ok e) : ∀ d, e = some d → EndsOk T d := by
  induction v with
  | nil => cases he; intro d hd; cases hd
  | cons n ns ih =>
    unfold firstEnd at he
    split at he
    · cases he
    · rename_i a b c d e f g fp hc
      cases he
      intro d hd
      cases hd
      exact H.get hc
    · exact ih he

theorem findSeen_lt {hash : Nat} {v : List Nat} : ∀ (hs : List Nat) (ss : List (List Nat)) {i : Nat},
    findSeen hash v hs ss = some i → i < ss.length
  | [], ss, i, h => by simp [findSeen] at h
  | _ :: _, [], i, h => by simp [findSeen] at h
  | h :: hs, s :: ss, i, e => by
    rw [findSeen] at e
    split at e
    · cases e; simp
    · obtain ⟨j, hj, rfl⟩ := Option.map_eq_some_iff.1 e
      have := findSeen_lt hs ss hj
      simp; omega

/-- The rows while the states are built. -/
structure DOk (T : Bool → Nat → Nat → Prop) (size : Nat) (D : DState) : Prop where
  len : D.rows.length = D.seen.length + 1
  rows : RowsOk T size D.rows.length D.rows
  eols : ∀ e ∈ D.eolSet, 0 < e

theorem closure_ok {E : DfaEnv} (h7 : 7 ≤ E.size) (T0 : T false 0 0) (H : HeapAll (EndsOk T) E.heap) {D D' : DState}
    {fp : List Nat} {t : Option Nat} (I : DOk T E.size D) (h : closure E D fp = .ok (t, D')) :
    DOk T E.size D' ∧ (∀ x, t = some x → x < D'.rows.length) ∧ D.rows.length ≤ D'.rows.length ∧
      (fp ≠ [] → 2 ≤ D'.rows.length) := by
  unfold closure at h
  split at h
  · cases h
    exact ⟨I, (fun x hx => by cases hx), Nat.le_refl _, fun h => absurd rfl h⟩
  · obtain ⟨e, he, h⟩ := bind_ok h
    dsimp only at h
    split at h
    · rename_i i hi
      have := findSeen_lt _ _ hi
      cases h
      refine ⟨⟨I.len, I.rows, I.eols⟩, ?_, Nat.le_refl _, ?_⟩
      · intro x hx
        cases hx
        show i + 1 < D.rows.length
        rw [I.len]; omega
      · intro _
        show 2 ≤ D.rows.length
        rw [I.len]; omega
    · cases h
      obtain ⟨n1, n2, n3⟩ := newRow_spec h7 T0 (firstEnd_ends H _ he)
      refine ⟨⟨?_, ?_, I.eols⟩, ?_, ?_, ?_⟩
      · simp [I.len]
      · exact (I.rows.mono (by simp)).snoc n1 n2 n3
      · intro x hx
        cases hx
        simp [I.len]
      · simp
      · intro _
        simp [I.len]

theorem setInsert_mem {x y : Nat} : ∀ {l : List Nat}, y ∈ setInsert x l → y = x ∨ y ∈ l := by
  intro l
  induction l with
  | nil => intro h; simpa [setInsert] using h
  | cons a l ih =>
    intro h
    rw [setInsert] at h
    split at h
    · simpa using h
    · split at h
      · exact .inr h
      · rcases List.mem_cons.1 h with h | h
        · exact .inr (by simp [h])
        · rcases ih h with h | h
          · exact .inl h
          · exact .inr (by simp [h])

theorem setTransitions_ok {E : DfaEnv} {t index : Nat} (is : List Nat) : ∀ {D D' : DState},
    DOk T E.size D → t < D.rows.length → setTransitions E t index is D = .ok D' →
    DOk T E.size D' ∧ D'.rows.length = D.rows.length := by
  induction is with
  | nil => intro D D' I _ h; cases h; exact ⟨I, rfl⟩
  | cons i is ih =>
    intro D D' I ht h
    unfold setTransitions at h
    split at h
    · obtain ⟨rows, h1, h⟩ := bind_ok h
      obtain ⟨r1, r2⟩ := I.rows.setCell ht (.inr (.inr ⟨rfl, rfl⟩)) h1
      obtain ⟨g1, g2⟩ := ih (D := { D with rows := rows }) ⟨by show rows.length = _; rw [r2, I.len], by
        show RowsOk T E.size rows.length rows; rw [r2]; exact r1, I.eols⟩ (by show t < rows.length; omega) h
      exact ⟨g1, g2.trans r2⟩
    · split at h
      · obtain ⟨rows, h1, h⟩ := bind_ok h
        obtain ⟨r1, r2⟩ := I.rows.setCell ht (.inl rfl) h1
        obtain ⟨g1, g2⟩ := ih (D := { D with rows := rows, eolSet := setInsert (index + 1) D.eolSet })
          ⟨by show rows.length = _; rw [r2, I.len], by
          show RowsOk T E.size rows.length rows; rw [r2]; exact r1, by
            intro e he
            rcases setInsert_mem he with h | h
            · omega
            · exact I.eols e h⟩ (by show t < rows.length; omega) h
        exact ⟨g1, g2.trans r2⟩
      · obtain ⟨rows, h1, h⟩ := bind_ok h
        obtain ⟨r1, r2⟩ := I.rows.setCell ht (.inr (.inl (by simp only [ixTransitions]; omega))) h1
        obtain ⟨g1, g2⟩ := ih (D := { D with rows := rows }) ⟨by show rows.length = _; rw [r2, I.len], by
          show RowsOk T E.size rows.length rows; rw [r2]; exact r1, I.eols⟩ (by show t < rows.length; omega) h
        exact ⟨g1, g2.trans r2⟩

theorem buildState_ok {E : DfaEnv} (h7 : 7 ≤ E.size) (T0 : T false 0 0) (H : HeapAll (EndsOk T) E.heap) {index : Nat}
    (es : List Equivset) : ∀ {D D' : DState}, DOk T E.size D → buildState E index es D = .ok D' →
    DOk T E.size D' ∧ D.rows.length ≤ D'.rows.length := by
  induction es with
  | nil => intro D D' I h; cases h; exact ⟨I, Nat.le_refl _⟩
  | cons e es ih =>
    intro D D' I h
    unfold buildState at h
    obtain ⟨fp, h1, h⟩ := bind_ok h
    obtain ⟨⟨t, D1⟩, h2, h⟩ := bind_ok h
    obtain ⟨c1, c2, c3, _⟩ := closure_ok h7 T0 H I h2
    dsimp only at h
    split at h
    · obtain ⟨g1, g2⟩ := ih c1 h
      exact ⟨g1, Nat.le_trans c3 g2⟩
    · obtain ⟨v, h3, h⟩ := bind_ok h
      split at h
      · obtain ⟨g1, g2⟩ := ih c1 h
        exact ⟨g1, Nat.le_trans c3 g2⟩
      · obtain ⟨D2, h4, h⟩ := bind_ok h
        obtain ⟨s1, s2⟩ := setTransitions_ok _ c1 (c2 _ rfl) h4
        obtain ⟨g1, g2⟩ := ih s1 h
        exact ⟨g1, by omega⟩

theorem buildStates_ok {E : DfaEnv} (h7 : 7 ≤ E.size) (T0 : T false 0 0) (H : HeapAll (EndsOk T) E.heap) (fuel : Nat) :
    ∀ {index : Nat} {D D' : DState}, DOk T E.size D → buildStates E fuel index D = .ok D' →
    DOk T E.size D' ∧ D.rows.length ≤ D'.rows.length := by
  induction fuel with
  | zero => intro index D D' _ h; cases h
  | succ fuel ih =>
    intro index D D' I h
    unfold buildStates at h
    split at h
    · cases h; exact ⟨I, Nat.le_refl _⟩
    · obtain ⟨es, h1, h⟩ := bind_ok h
      obtain ⟨D1, h2, h⟩ := bind_ok h
      obtain ⟨c1, c2⟩ := buildState_ok h7 T0 H es I h2
      obtain ⟨g1, g2⟩ := ih c1 h
      exact ⟨g1, Nat.le_trans c2 g2⟩

/-- The rows after the clashes are fixed. -/
def Fixed (T : Bool → Nat → Nat → Prop) (size : Nat) (rows rows' : List Row) : Prop :=
  RowsOk T size rows'.length rows' ∧ rows.length ≤ rows'.length

theorem fixClash_ok {size cr nl eol : Nat} {rows rows' : List Row} (R : RowsOk T size rows.length rows)
    (h : fixClash cr nl rows eol = .ok rows') : Fixed T size rows rows' := by
  unfold fixClash at h
  obtain ⟨eolState, h1, h⟩ := bind_ok h
  obtain ⟨crState, h2, h⟩ := bind_ok h
  obtain ⟨nlState, h3, h⟩ := bind_ok h
  have b1 := R.getCell (.inl rfl) h1
  have b2 := R.getCell (.inr (by simp only [ixTransitions]; omega)) h2
  have b3 := R.getCell (.inr (by simp only [ixTransitions]; omega)) h3
  obtain ⟨⟨ptr, rows1⟩, h4, h⟩ := bind_ok h
  have R1 : RowsOk T size rows.length rows1 ∧ rows1.length = rows.length := by
    split at h4
    · obtain ⟨r2, h5, h4⟩ := bind_ok h4
      obtain ⟨x1, x2⟩ := R.setCell (by omega) (.inr (.inl (by simp only [ixTransitions]; omega))) h5
      obtain ⟨old, h6, h4⟩ := bind_ok h4
      obtain ⟨r3, h7, h4⟩ := bind_ok h4
      cases h4
      split at h7
      · obtain ⟨y1, y2⟩ := x1.setCell b2 (.inr (.inl (by simp only [ixTransitions]; omega))) h7
        exact ⟨y1, y2.trans x2⟩
      · cases h7; exact ⟨x1, x2⟩
    · cases h4; exact ⟨R, rfl⟩
  dsimp only at h
  have R2 : RowsOk T size rows.length rows' ∧ rows'.length = rows.length := by
    split at h
    · obtain ⟨r2, h5, h⟩ := bind_ok h
      obtain ⟨x1, x2⟩ := R1.1.setCell (by omega) (.inr (.inl (by simp only [ixTransitions]; omega))) h5
      obtain ⟨old, h6, h⟩ := bind_ok h
      split at h
      · obtain ⟨y1, y2⟩ := x1.setCell b3 (.inr (.inl (by simp only [ixTransitions]; omega))) h
        exact ⟨y1, by rw [y2, x2, R1.2]⟩
      · cases h; exact ⟨x1, x2.trans R1.2⟩
    · cases h; exact R1
  refine ⟨by rw [R2.2]; exact R2.1, by omega⟩

theorem fixClashes_ok {size cr nl : Nat} (es : List Nat) : ∀ {rows rows' : List Row},
    RowsOk T size rows.length rows → es.foldlM (fixClash cr nl) rows = .ok rows' → Fixed T size rows rows' := by
  induction es with
  | nil => intro rows rows' R h; cases h; exact ⟨R, Nat.le_refl _⟩
  | cons e es ih =>
    intro rows rows' R h
    rw [List.foldlM_cons] at h
    obtain ⟨r1, h1, h⟩ := bind_ok h
    obtain ⟨x1, x2⟩ := fixClash_ok R h1
    obtain ⟨y1, y2⟩ := ih x1 h
    exact ⟨y1, Nat.le_trans x2 y2⟩

theorem hangChain_ok {char24 : Bool} {size zeroId id state eolState : Nat} {rows rows' : List Row} {p i : Nat}
    (T0 : T false 0 0) (R : RowsOk T size rows.length rows) (hs : state < rows.length)
    (h : hangChain char24 size zeroId id state eolState rows = .ok (some (rows', p, i))) : Fixed T size rows rows' := by
  unfold hangChain at h
  obtain ⟨old, h1, h⟩ := bind_ok h
  split at h
  · cases h
  · obtain ⟨r1, h2, h⟩ := bind_ok h
    obtain ⟨x1, x2⟩ := (R.mono (Nat.le_succ _)).setCell (Nat.lt_succ_self _)
      (.inr (.inl (by simp only [ixTransitions]; omega))) h2
    have y1 := x1.zeros T0
    have y2 : (r1 ++ [List.replicate size 0]).length = rows.length + 1 := by simp [x2]
    dsimp only at h
    generalize r1 ++ [List.replicate size 0] = r2 at h y1 y2
    obtain ⟨r3, h3, h⟩ := bind_ok h
    have z : RowsOk T size r3.length r3 ∧ rows.length < r3.length := by
      split at h3
      · obtain ⟨r4, h4, h3⟩ := bind_ok h3
        cases h3
        obtain ⟨w1, w2⟩ := (y1.mono (Nat.le_succ _)).setCell (show r2.length < rows.length.succ.succ by omega)
          (.inr (.inl (by simp only [ixTransitions]; omega))) h4
        have := w1.zeros T0
        have hl : (r4 ++ [List.replicate size 0]).length = rows.length.succ.succ := by simp [w2, y2]
        rw [hl]
        exact ⟨this, by omega⟩
      · cases h3
        rw [y2]
        exact ⟨y1, by omega⟩
    obtain ⟨r5, h5, h⟩ := bind_ok h
    cases h
    obtain ⟨w1, w2⟩ := z.1.setCell (show state < r3.length by omega)
      (.inr (.inl (by simp only [ixTransitions]; omega))) h5
    exact ⟨by rw [w2]; exact w1, by omega⟩

theorem fixClashesComp_ok {char24 : Bool} {size cr nl zeroId : Nat} (T0 : T false 0 0) (es : List Nat) :
    ∀ {i : Nat} {rows rows' : List Row}, RowsOk T size rows.length rows →
    fixClashesComp char24 size cr nl zeroId es i rows = .ok rows' → Fixed T size rows rows' := by
  induction es with
  | nil => intro i rows rows' R h; cases h; exact ⟨R, Nat.le_refl _⟩
  | cons e es ih =>
    intro i rows rows' R h
    unfold fixClashesComp at h
    obtain ⟨eolState, h1, h⟩ := bind_ok h
    obtain ⟨ptr, h2, h⟩ := bind_ok h
    obtain ⟨crState, h3, h⟩ := bind_ok h
    have b3 := R.getCell (.inr (by simp only [ixTransitions]; omega)) h3
    obtain ⟨o, h4, h⟩ := bind_ok h
    split at h
    · exact ih R h
    · rename_i rows1 ptr1 i1
      have F1 : Fixed T size rows rows1 := by
        split at h4
        · exact hangChain_ok T0 R b3 h4
        · cases h4; exact ⟨R, Nat.le_refl _⟩
      obtain ⟨nlState, h5, h⟩ := bind_ok h
      have b5 := F1.1.getCell (.inr (by simp only [ixTransitions]; omega)) h5
      obtain ⟨o2, h6, h⟩ := bind_ok h
      split at h
      · obtain ⟨y1, y2⟩ := ih F1.1 h
        exact ⟨y1, Nat.le_trans F1.2 y2⟩
      · rename_i rows2 ptr2 i2
        have F2 : Fixed T size rows1 rows2 := by
          split at h6
          · exact hangChain_ok T0 F1.1 b5 h6
          · cases h6; exact ⟨F1.1, Nat.le_refl _⟩
        obtain ⟨y1, y2⟩ := ih F2.1 h
        exact ⟨y1, Nat.le_trans F1.2 (Nat.le_trans F2.2 y2)⟩

theorem fillLookup_ok {index size : Nat} (hi : index + 7 < size) (t : Token) {lk lk' : List Nat}
    (H : ∀ c ∈ lk, 6 ≤ c ∧ c < size) (h : fillLookup index t lk = some lk') :
    (∀ c ∈ lk', 6 ≤ c ∧ c < size) ∧ lk'.length = lk.length := by
  unfold fillLookup at h
  induction t generalizing lk with
  | nil => cases h; exact ⟨H, rfl⟩
  | cons r t ih =>
    rw [List.foldl_cons] at h
    have hnone : ∀ (t : Token) (f : Range → List Nat → Option (List Nat)),
        t.foldl (fun acc r => Option.bind acc (f r)) none = none := by
      intro t f
      induction t with
      | nil => rfl
      | cons r t ih => rw [List.foldl_cons]; exact ih
    simp only [Option.bind_some] at h
    split at h
    · obtain ⟨g1, g2⟩ := ih (lk := fillRange (index + ixTransitions) r lk) (by
        intro c hc
        obtain ⟨k, hk⟩ := List.mem_iff_getElem?.1 hc
        rw [fillRange, List.getElem?_mapIdx] at hk
        obtain ⟨v, v1, v2⟩ := Option.map_eq_some_iff.1 hk
        split at v2
        · subst v2; simp only [ixTransitions]; omega
        · subst v2; exact H v (List.mem_of_getElem? v1)) h
      exact ⟨g1, by rw [g2]; simp [fillRange]⟩
    · rw [hnone t fun r lk => if r.2 < lk.length then some (fillRange (index + ixTransitions) r lk) else none] at h
      cases h

theorem buildLookup_ok {size : Nat} (cs : List Charset) : ∀ {index : Nat} {lk lk' : List Nat},
    index + cs.length + 7 ≤ size → (∀ c ∈ lk, 6 ≤ c ∧ c < size) → buildLookup index cs lk = some lk' →
    (∀ c ∈ lk', 6 ≤ c ∧ c < size) ∧ lk'.length = lk.length := by
  induction cs with
  | nil => intro index lk lk' _ H h; cases h; exact ⟨H, rfl⟩
  | cons c cs ih =>
    intro index lk lk' hi H h
    rw [List.length_cons] at hi
    unfold buildLookup at h
    split at h
    · cases h
    · rename_i l1 h1
      obtain ⟨g1, g2⟩ := fillLookup_ok (by omega) c.token H h1
      obtain ⟨k1, k2⟩ := ih (by omega) g1 h
      exact ⟨k1, k2.trans g2⟩

theorem prepareDfa_ok {tr : Traits} {m : CharsetMap} {cr nl : Nat} {classes : List Charset}
    {mapping : List (List Nat)} {lk : List Nat} {cr' nl' z size : Nat}
    (h : prepareDfa tr true m cr nl = .ok (classes, mapping, lk, cr', nl', z)) (hs : classes.length + 7 ≤ size) :
    (∀ c ∈ lk, 6 ≤ c ∧ c < size) ∧ lk.length = 256 := by
  unfold prepareDfa at h
  split at h
  · cases h
  · split at h
    · rename_i mapping' lk' h1 h2
      obtain ⟨_, _, h⟩ := bind_ok h
      obtain ⟨_, _, h⟩ := bind_ok h
      obtain ⟨_, _, h⟩ := bind_ok h
      cases h
      obtain ⟨g1, g2⟩ := buildLookup_ok (size := size) classes (index := 0) (lk := List.replicate 256 ixDead) (by omega) (by
        intro c hc
        have := List.eq_of_mem_replicate hc
        subst this
        simp only [ixDead]; omega) (by rw [if_pos rfl] at h2; exact h2)
      exact ⟨g1, by rw [g2, List.length_replicate]⟩
    · cases h

theorem buildDfa_ok {tr : Traits} {allow : Bool} {addr : Nat → Nat} {heap : Heap} {m : CharsetMap} {cr nl : Nat}
    {root : Tree} {used : List Nat} {out : DfaOut} (T0 : T false 0 0) (H : HeapAll (EndsOk T) heap)
    (hr : root.firstpos ≠ []) (h : buildDfa tr true allow addr heap m cr nl root used = .ok out) :
    7 ≤ out.alphabet ∧ RowsOk T out.alphabet out.rows.length out.rows ∧ 2 ≤ out.rows.length ∧
      (∀ c ∈ out.lookup, 6 ≤ c ∧ c < out.alphabet) ∧ out.lookup.length = 256 ∧ out.alphabet ≤ tr.npos := by
  unfold buildDfa at h
  obtain ⟨⟨classes, mapping, lk, cr', nl', z⟩, h1, h⟩ := bind_ok h
  dsimp only at h
  have hsz : classes.length + 7 ≤ classes.length + ixTransitions + (if cr' = tr.npos ∧ nl' = tr.npos then 0 else 1) :=
    Nat.le_add_right _ _
  obtain ⟨l1, l2⟩ := prepareDfa_ok h1 hsz
  generalize classes.length + ixTransitions + (if cr' = tr.npos ∧ nl' = tr.npos then 0 else 1) = size at h hsz l1
  split at h
  · cases h
  · rename_i hnp
    obtain ⟨⟨t, D⟩, h2, h⟩ := bind_ok h
    have I0 : DOk T size ⟨[List.replicate size 0], [], [], used, []⟩ := ⟨rfl, RowsOk.zero (by omega), by simp⟩
    obtain ⟨c1, _, _, c4⟩ := closure_ok (E := ⟨tr, heap, addr, mapping, cr', nl', size, allow⟩)
      (show 7 ≤ size by omega) T0 H I0 h2
    obtain ⟨D2, h3, h⟩ := bind_ok h
    obtain ⟨d1, d2⟩ := buildStates_ok (E := ⟨tr, heap, addr, mapping, cr', nl', size, allow⟩)
      (show 7 ≤ size by omega) T0 H _ c1 h3
    obtain ⟨rows, h4, h⟩ := bind_ok h
    cases h
    have F : Fixed T size D2.rows rows := by
      split at h4
      · exact fixClashesComp_ok T0 _ d1.rows h4
      · exact fixClashes_ok _ d1.rows h4
    exact ⟨by show 7 ≤ size; omega, F.1, Nat.le_trans (c4 hr) (Nat.le_trans d2 F.2), l1, l2, Nat.le_of_not_lt hnp⟩

/-- One built table. -/
structure OutOk (T : Bool → Nat → Nat → Prop) (npos : Nat) (out : DfaOut) : Prop where
  wide : 7 ≤ out.alphabet
  rows : RowsOk T out.alphabet out.rows.length out.rows
  two : 2 ≤ out.rows.length
  few : out.rows.length < npos
  cols : ∀ c ∈ out.lookup, 6 ≤ c ∧ c < out.alphabet
  chars : out.lookup.length = 256
  small : out.alphabet ≤ npos

theorem buildLoop_ok {tr : Traits} {addr : Nat → Nat} {R : Rules} (T0 : T false 0 0) (rss : List (List Rule)) :
    ∀ {feats : List Nat} {B B' : BuildState}, HeapAll (EndsOk T) B.heap → (∀ o ∈ B.dfas, OutOk T tr.npos o) →
    (∀ rs ∈ rss, ∀ r ∈ rs, T r.popDfa r.pushDfa r.nextDfa) → buildLoop tr true addr R rss feats B = .ok B' →
    (∀ o ∈ B'.dfas, OutOk T tr.npos o) ∧ B'.dfas.length = B.dfas.length + rss.length := by
  induction rss with
  | nil => intro feats B B' _ H2 _ h; cases h; exact ⟨H2, rfl⟩
  | cons rs rss ih =>
    intro feats B B' H1 H2 H3 h
    unfold buildLoop at h
    split at h
    · cases h
    · dsimp only at h
      obtain ⟨⟨p, root, uid⟩, h1, h⟩ := bind_ok h
      obtain ⟨_, h2, h⟩ := bind_ok h
      obtain ⟨out, h3, h⟩ := bind_ok h
      obtain ⟨p1, p2⟩ := buildTree_all (P := EndsOk T) (fun _ _ => trivial) H1
        (fun r hr u g => H3 rs (by simp) r hr) h1
      obtain ⟨b1, b2, b3, b4, b5, b6⟩ := buildDfa_ok T0 p1 (Tree.first_of_not_nullable _ p2) h3
      split at h
      · cases h
      · rename_i hfew
        obtain ⟨g1, g2⟩ := ih (B := ⟨p.heap, out.used, uid, B.dfas ++ [out]⟩) p1 (by
          intro o ho
          rcases List.mem_append.1 ho with ho | ho
          · exact H2 o ho
          · rw [List.mem_singleton.1 ho]
            exact ⟨b1, b2, b3, Nat.lt_of_not_le hfew, b4, b5, b6⟩)
          (fun rs' h => H3 rs' (by simp [h])) h
        exact ⟨g1, by rw [g2]; simp; omega⟩

/-- The tables of a built machine. -/
theorem buildTemp_ok {tr : Traits} {addr : Nat → Nat} {R : Rules} {sm : Internals} (T0 : T false 0 0)
    (hT : ∀ rs ∈ R.states, ∀ r ∈ rs, T r.popDfa r.pushDfa r.nextDfa) (h : buildTemp tr addr R = .ok sm) :
    ∃ outs : List DfaOut, sm = createInternals R outs ∧ outs.length = R.states.length ∧
      ∀ o ∈ outs, OutOk T tr.npos o := by
  unfold buildTemp at h
  obtain ⟨B, h1, h⟩ := bind_ok h
  obtain ⟨_, h2, h⟩ := bind_ok h
  cases h
  obtain ⟨g1, g2⟩ := buildLoop_ok (B := ⟨[], [], 0, []⟩) T0 R.states (fun c hc => by cases hc) (fun o ho => by cases ho) hT h1
  exact ⟨B.dfas, rfl, by simpa using g2, g1⟩

end Lexertl
