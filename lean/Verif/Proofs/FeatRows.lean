import Verif.Proofs.FeatLeaves

/-
The features of a built machine say what is in its tables.

Second part: what the generator puts into the rows.
-/
namespace Lexertl.Feat
open Spec

variable {tr : Traits} {B E : Prop} {Q : Nat → Nat → Bool → Prop}

/-- Start rows for line starts only if `B`, end of line rows only if `E`, and end rows as
`Q` allows. -/
structure RowsSay (B E : Prop) (Q : Nat → Nat → Bool → Prop) (rows : List Row) : Prop where
  ne : 0 < rows.length
  ends : ∀ (p : Nat) (row : Row) (x : Nat), 0 < p → rows[p]? = some row → row[0]? = some x → x ≠ 0 →
    ∃ id push, row[1]? = some id ∧ row[3]? = some push ∧ Q id push (hasBit x bitPop)
  eol : ¬ E → ∀ (p : Nat) (row : Row), 0 < p → rows[p]? = some row → row[5]? = some 0
  bol : ¬ B → ∀ row, rows[0]? = some row → row[0]? = some 0

namespace RowsSay
variable {rows rows' : List Row}

theorem setCell (R : RowsSay B E Q rows) {p c v : Nat} (hc : 6 < c ∨ (c = 5 ∧ E) ∨ (p = 0 ∧ c = 0 ∧ B))
    (h : Lexertl.setCell rows p c v = .ok rows') : RowsSay B E Q rows' := by
  unfold Lexertl.setCell at h
  split at h
  · cases h
  · rename_i r hr
    split at h
    · rename_i hcl
      cases h
      have hp := (List.getElem?_eq_some_iff.1 hr).1
      have key : ∀ (q : Nat) (row : Row), (rows.set p (r.set c v))[q]? = some row →
          ∃ (old : Row), rows[q]? = some old ∧ ∀ k, row[k]? = old[k]? ∨ q = p ∧ k = c := by
        intro q row hq
        by_cases hqp : q = p
        · subst hqp
          rw [List.getElem?_set_self hp] at hq
          cases hq
          refine ⟨r, hr, fun k => ?_⟩
          by_cases hkc : k = c
          · exact .inr ⟨rfl, hkc⟩
          · exact .inl (List.getElem?_set_ne (fun h => hkc h.symm))
        · rw [List.getElem?_set_ne (fun h => hqp h.symm)] at hq
          exact ⟨row, hq, fun k => .inl rfl⟩
      refine ⟨by simpa using R.ne, ?_, ?_, ?_⟩
      · intro q row x hq0 hq hx hx0
        obtain ⟨old, o1, o2⟩ := key q row hq
        have o : ∀ k, k < 5 → row[k]? = old[k]? := by
          intro k hk
          rcases o2 k with h | ⟨rfl, rfl⟩
          · exact h
          · omega
        rw [o 1 (by omega), o 3 (by omega)]
        exact R.ends q old x hq0 o1 (by rw [← o 0 (by omega)]; exact hx) hx0
      · intro hE q row hq0 hq
        obtain ⟨old, o1, o2⟩ := key q row hq
        rcases o2 5 with h | ⟨rfl, rfl⟩
        · rw [h]; exact R.eol hE q old hq0 o1
        · rcases hc with h | ⟨_, h⟩ | ⟨h, _⟩
          · omega
          · exact (hE h).elim
          · omega
      · intro hB row hq
        obtain ⟨old, o1, o2⟩ := key 0 row hq
        rcases o2 0 with h | ⟨rfl, rfl⟩
        · rw [h]; exact R.bol hB old o1
        · rcases hc with h | ⟨h, _⟩ | ⟨_, _, h⟩
          · omega
          · omega
          · exact (hB h).elim
    · cases h

theorem snoc (R : RowsSay B E Q rows) {row : Row}
    (he : ∀ x, row[0]? = some x → x ≠ 0 → ∃ id push, row[1]? = some id ∧ row[3]? = some push ∧ Q id push (hasBit x bitPop))
    (h5 : row[5]? = some 0) : RowsSay B E Q (rows ++ [row]) := by
  have key : ∀ (q : Nat) r, (rows ++ [row])[q]? = some r → rows[q]? = some r ∨ r = row := by
    intro q r hq
    rcases Nat.lt_or_ge q rows.length with h | h
    · rw [List.getElem?_append_left h] at hq; exact .inl hq
    · rw [List.getElem?_append_right h] at hq
      exact .inr (List.mem_singleton.1 (List.mem_of_getElem? hq))
  refine ⟨by simp, ?_, ?_, ?_⟩
  · intro p r x hp hr hx hx0
    rcases key p r hr with h | rfl
    · exact R.ends p r x hp h hx hx0
    · exact he x hx hx0
  · intro hE p r hp hr
    rcases key p r hr with h | rfl
    · exact R.eol hE p r hp h
    · exact h5
  · intro hB r hr
    rw [List.getElem?_append_left R.ne] at hr
    exact R.bol hB r hr

theorem zeros (R : RowsSay B E Q rows) {size : Nat} (h7 : 7 ≤ size) : RowsSay B E Q (rows ++ [List.replicate size 0]) := by
  refine R.snoc ?_ (by rw [List.getElem?_replicate, if_pos (by omega)])
  intro x hx h0
  rw [List.getElem?_replicate, if_pos (by omega)] at hx
  exact (h0 (Option.some.inj hx).symm).elim

theorem one {size : Nat} (h7 : 7 ≤ size) : RowsSay B E Q [List.replicate size 0] := by
  refine ⟨by simp, ?_, ?_, ?_⟩
  · intro p row x hp hr
    have := (List.getElem?_eq_some_iff.1 hr).1
    simp at this; omega
  · intro _ p row hp hr
    have := (List.getElem?_eq_some_iff.1 hr).1
    simp at this; omega
  · intro _ row hr
    cases hr
    rw [List.getElem?_replicate, if_pos (by omega)]

end RowsSay

theorem newRow_says {size : Nat} (h7 : 7 ≤ size) {e : Option NodeData} (he : ∀ d, e = some d → NodeOk tr B E Q d) :
    (∀ x, (newRow size e)[0]? = some x → x ≠ 0 → ∃ id push, (newRow size e)[1]? = some id ∧
      (newRow size e)[3]? = some push ∧ Q id push (hasBit x bitPop)) ∧ (newRow size e)[5]? = some 0 := by
  unfold newRow
  split
  · rename_i id userId u next push pop g
    refine ⟨?_, ?_⟩
    · intro x hx _
      simp only [List.cons_append, List.getElem?_cons_zero, Option.some.injEq] at hx
      subst hx
      refine ⟨id, push, rfl, rfl, ?_⟩
      have : hasBit (bitEnd + (if g ≠ .no then bitGreedy else 0) + (if pop then bitPop else 0)) bitPop = pop := by
        cases pop <;> cases g <;> decide
      rw [this]
      exact he _ rfl
    · rw [List.getElem?_append_right (by simp)]
      simp only [List.length_cons, List.length_nil]
      rw [List.getElem?_replicate, if_pos (by omega)]
  · refine ⟨?_, by rw [List.getElem?_replicate, if_pos (by omega)]⟩
    intro x hx h0
    rw [List.getElem?_replicate, if_pos (by omega)] at hx
    exact (h0 (Option.some.inj hx).symm).elim

theorem firstEnd_ok {h : Heap} (H : HeapAll (NodeOk tr B E Q) h) (v : List Nat) {e : Option NodeData}
    (he : firstEnd h v = .ok e) : ∀ d, e = some d → NodeOk tr B E Q d := by
  induction v with
  | nil => cases he; intro d hd; cases hd
  | cons n ns ih =>
    unfold firstEnd at he
    split at he
    · cases he
    · rename_i hc
      cases he
      intro d hd
      cases hd
      exact H.get hc
    · exact ih he

theorem closure_says {V : DfaEnv} (h7 : 7 ≤ V.size) (H : HeapAll (NodeOk tr B E Q) V.heap) {D D' : DState}
    {fp : List Nat} {t : Option Nat} (I : RowsSay B E Q D.rows) (h : closure V D fp = .ok (t, D')) :
    RowsSay B E Q D'.rows := by
  unfold closure at h
  split at h
  · cases h; exact I
  · obtain ⟨e, he, h⟩ := bind_ok h
    dsimp only at h
    split at h
    · cases h; exact I
    · cases h
      obtain ⟨n1, n2⟩ := newRow_says h7 (firstEnd_ok H _ he)
      exact I.snoc n1 n2

/-! ### The columns set -/

/-- Only the columns of `^` if `B`, and of `$` if `E`. -/
def GoodIx (tr : Traits) (B E : Prop) (i : Nat) : Prop := (i = tr.bolToken → B) ∧ (i = tr.eolToken → E)

theorem setTransitions_says {V : DfaEnv} {t index : Nat} (is : List Nat) : ∀ {D D' : DState},
    (∀ i ∈ is, GoodIx V.tr B E i) → RowsSay B E Q D.rows → setTransitions V t index is D = .ok D' →
    RowsSay B E Q D'.rows := by
  induction is with
  | nil => intro D D' _ I h; cases h; exact I
  | cons i is ih =>
    intro D D' hg I h
    have hi := hg i (by simp)
    have hg' : ∀ j ∈ is, GoodIx V.tr B E j := fun j hj => hg j (by simp [hj])
    unfold setTransitions at h
    split at h
    · rename_i hb
      obtain ⟨rows, h1, h⟩ := bind_ok h
      exact ih (D := { D with rows := rows }) hg' (I.setCell (.inr (.inr ⟨rfl, rfl, hi.1 hb⟩)) h1) h
    · split at h
      · rename_i hb
        obtain ⟨rows, h1, h⟩ := bind_ok h
        exact ih (D := { D with rows := rows, eolSet := setInsert (index + 1) D.eolSet }) hg'
          (I.setCell (.inr (.inl ⟨rfl, hi.2 hb⟩)) h1) h
      · obtain ⟨rows, h1, h⟩ := bind_ok h
        exact ih (D := { D with rows := rows }) hg' (I.setCell (.inl (by simp only [ixTransitions]; omega)) h1) h

theorem buildState_says {V : DfaEnv} (h7 : 7 ≤ V.size) (H : HeapAll (NodeOk V.tr B E Q) V.heap) {index : Nat}
    (es : List Equivset) : ∀ {D D' : DState}, (∀ e ∈ es, ∀ i ∈ e.indexVector, GoodIx V.tr B E i) →
    RowsSay B E Q D.rows → buildState V index es D = .ok D' → RowsSay B E Q D'.rows := by
  induction es with
  | nil => intro D D' _ I h; cases h; exact I
  | cons e es ih =>
    intro D D' hg I h
    have hg' : ∀ e ∈ es, ∀ i ∈ e.indexVector, GoodIx V.tr B E i := fun e he => hg e (by simp [he])
    unfold buildState at h
    obtain ⟨fp, h1, h⟩ := bind_ok h
    obtain ⟨⟨t, D1⟩, h2, h⟩ := bind_ok h
    have c1 := closure_says h7 H I h2
    dsimp only at h
    split at h
    · exact ih hg' c1 h
    · obtain ⟨v, h3, h⟩ := bind_ok h
      split at h
      · exact ih hg' c1 h
      · obtain ⟨D2, h4, h⟩ := bind_ok h
        exact ih hg' (setTransitions_says _ (hg e (by simp)) c1 h4) h

/-! ### The index vectors -/

theorem fillRhs_good {sm : List (List Nat)} {n : Nat} (hn : n + 2 < tr.npos) (hsm : ∀ s ∈ sm, ∀ i ∈ s, i < n) {h : Heap}
    (H : HeapAll (NodeOk tr B E Q) h) (v : List Nat) : ∀ {es : List Equivset}, fillRhsEquiv tr h sm v = .ok es →
    ∀ e ∈ es, ∀ i ∈ e.indexVector, GoodIx tr B E i := by
  induction v with
  | nil => intro es e; cases e; intro e he; cases he
  | cons a ns ih =>
    intro es e
    unfold fillRhsEquiv at e
    split at e
    · cases e
    · exact ih e
    · rename_i token g fp hc
      split at e
      · exact ih e
      · obtain ⟨idx, e1, e⟩ := bind_ok e
        obtain ⟨es', e2, e⟩ := bind_ok e
        cases e
        intro x hx
        rcases List.mem_cons.1 hx with rfl | hx
        · have hl : NodeOk tr B E Q (.leaf token g) := H.get hc
          show ∀ i ∈ idx, GoodIx tr B E i
          split at e1
          · cases e1
            intro i hi
            rw [List.mem_singleton.1 hi]
            exact hl
          · unfold mappingAt at e1
            split at e1
            · rename_i s hs
              cases e1
              intro i hi
              have := hsm _ (List.mem_of_getElem? hs) i hi
              refine ⟨fun h => ?_, fun h => ?_⟩
              · simp only [Traits.bolToken] at h; omega
              · simp only [Traits.eolToken] at h; omega
            · cases e1
        · exact ih e2 x hx

theorem removeIdx_mem (s d : List Nat) : ∀ {r : List Nat}, Equivset.removeIdx s d = some r → ∀ i ∈ r, i ∈ d := by
  fun_induction Equivset.removeIdx s d with
  | case1 => intro r h; cases h; exact fun i h => h
  | case2 => intro r h; cases h
  | case3 s ss ds ih => intro r h i hi; exact List.mem_cons_of_mem _ (ih h i hi)
  | case4 s ss d ds hne ih =>
    intro r h i hi
    obtain ⟨r', h1, rfl⟩ := Option.map_eq_some_iff.1 h
    rcases List.mem_cons.1 hi with rfl | hi
    · simp
    · exact List.mem_cons_of_mem _ (ih h1 i hi)

/-- All the index vectors satisfy `G`. -/
def AllIx (G : Nat → Prop) (e : Equivset) : Prop := ∀ i ∈ e.indexVector, G i

variable {G : Nat → Prop}

theorem intersect_good {l r l' r' ov : Equivset} (hl : AllIx G l) (hr : AllIx G r)
    (h : Equivset.intersect l r = some (l', r', ov)) : AllIx G l' ∧ AllIx G r' ∧ AllIx G ov := by
  unfold Equivset.intersect at h
  dsimp only at h
  split at h
  · cases h
    exact ⟨hl, hr, fun i hi => (nomatch hi)⟩
  · split at h
    · rename_i li ri h1 h2
      cases h
      refine ⟨fun i hi => hl i (removeIdx_mem _ _ h1 i hi), fun i hi => hr i (removeIdx_mem _ _ h2 i hi), fun i hi => ?_⟩
      exact hl i ((Equivset.setIntersection_sublist _ _).subset hi)
    · cases h

theorem splitInto_good {isEmpty : Equivset → Bool} : ∀ (ls : List Equivset) {r r' : Equivset} {ls' : List Equivset},
    AllIx G r → (∀ l ∈ ls, AllIx G l) → splitInto Equivset.intersect isEmpty r ls = some (ls', r') →
    (∀ l ∈ ls', AllIx G l) ∧ AllIx G r' := by
  intro ls
  induction ls with
  | nil => intro r r' ls' hr _ h; cases h; exact ⟨fun l hl => (nomatch hl), hr⟩
  | cons l ls ih =>
    intro r r' ls' hr hls h
    have hls' : ∀ l ∈ ls, AllIx G l := fun x hx => hls x (by simp [hx])
    unfold splitInto at h
    split at h
    · cases h; exact ⟨hls, hr⟩
    · split at h
      · cases h
      · rename_i l1 r1 ov h1
        obtain ⟨g1, g2, g3⟩ := intersect_good (hls l (by simp)) hr h1
        split at h
        · obtain ⟨⟨a, b⟩, k1, k2⟩ := Option.map_eq_some_iff.1 h
          obtain ⟨m1, m2⟩ := ih g2 hls' k1
          cases k2
          refine ⟨fun x hx => ?_, m2⟩
          rcases List.mem_cons.1 hx with rfl | hx
          · exact g1
          · exact m1 x hx
        · split at h
          · obtain ⟨⟨a, b⟩, k1, k2⟩ := Option.map_eq_some_iff.1 h
            obtain ⟨m1, m2⟩ := ih g2 hls' k1
            cases k2
            refine ⟨fun x hx => ?_, m2⟩
            rcases List.mem_cons.1 hx with rfl | hx
            · exact g3
            · exact m1 x hx
          · split at h
            · cases h
              refine ⟨fun x hx => ?_, g3⟩
              rcases List.mem_cons.1 hx with rfl | hx
              · exact g1
              · exact hls' x hx
            · obtain ⟨⟨a, b⟩, k1, k2⟩ := Option.map_eq_some_iff.1 h
              obtain ⟨m1, m2⟩ := ih g2 hls' k1
              cases k2
              refine ⟨fun x hx => ?_, m2⟩
              rcases List.mem_cons.1 hx with rfl | hx
              · exact g1
              · rcases List.mem_cons.1 hx with rfl | hx
                · exact g3
                · exact m1 x hx

theorem splitLoop_good {isEmpty : Equivset → Bool} : ∀ (rs lhs : List Equivset) {out : List Equivset},
    (∀ l ∈ rs, AllIx G l) → (∀ l ∈ lhs, AllIx G l) → splitLoop Equivset.intersect isEmpty lhs rs = some out →
    ∀ l ∈ out, AllIx G l := by
  intro rs
  induction rs with
  | nil => intro lhs out _ hl h; cases h; exact hl
  | cons r rs ih =>
    intro lhs out hr hl h
    unfold splitLoop at h
    split at h
    · cases h
    · rename_i lhs' r' h1
      obtain ⟨g1, g2⟩ := splitInto_good lhs (hr r (by simp)) hl h1
      refine ih _ (fun x hx => hr x (by simp [hx])) ?_ h
      intro x hx
      split at hx
      · exact g1 x hx
      · rcases List.mem_append.1 hx with hx | hx
        · exact g1 x hx
        · rw [List.mem_singleton.1 hx]; exact g2

theorem buildEquiv_good {sm : List (List Nat)} {n : Nat} (hn : n + 2 < tr.npos) (hsm : ∀ s ∈ sm, ∀ i ∈ s, i < n) {h : Heap}
    (H : HeapAll (NodeOk tr B E Q) h) {v : List Nat} {es : List Equivset} (e : buildEquivList tr h sm v = .ok es) :
    ∀ x ∈ es, ∀ i ∈ x.indexVector, GoodIx tr B E i := by
  obtain ⟨l, e1, e⟩ := bind_ok e
  have hf := fillRhs_good hn hsm H v e1
  split at e
  · rename_i out h1
    cases e
    cases l with
    | nil => cases h1; intro x hx; cases hx
    | cons r rhs =>
      exact splitLoop_good (G := GoodIx tr B E) rhs [r] (fun x hx => hf x (by simp [hx]))
        (fun x hx => by rw [List.mem_singleton.1 hx]; exact hf r (by simp)) h1
  · cases e

theorem buildStates_says {V : DfaEnv} {n : Nat} (h7 : 7 ≤ V.size) (hn : n + 2 < V.tr.npos)
    (hsm : ∀ s ∈ V.mapping, ∀ i ∈ s, i < n) (H : HeapAll (NodeOk V.tr B E Q) V.heap) (fuel : Nat) :
    ∀ {index : Nat} {D D' : DState}, RowsSay B E Q D.rows → buildStates V fuel index D = .ok D' →
    RowsSay B E Q D'.rows := by
  induction fuel with
  | zero => intro index D D' _ h; cases h
  | succ fuel ih =>
    intro index D D' I h
    unfold buildStates at h
    split at h
    · cases h; exact I
    · obtain ⟨es, h1, h⟩ := bind_ok h
      obtain ⟨D1, h2, h⟩ := bind_ok h
      exact ih (buildState_says h7 H es (buildEquiv_good hn hsm H h1) I h2) h

/-! ### Clashes, and whole machines -/

theorem fixClash_says {cr nl eol : Nat} {rows rows' : List Row} (R : RowsSay B E Q rows)
    (h : fixClash cr nl rows eol = .ok rows') : RowsSay B E Q rows' := by
  unfold fixClash at h
  obtain ⟨eolState, h1, h⟩ := bind_ok h
  obtain ⟨crState, h2, h⟩ := bind_ok h
  obtain ⟨nlState, h3, h⟩ := bind_ok h
  obtain ⟨⟨ptr, rows1⟩, h4, h⟩ := bind_ok h
  have hc : ∀ k, 6 < ixTransitions + k := fun k => by simp only [ixTransitions]; omega
  have R1 : RowsSay B E Q rows1 := by
    split at h4
    · obtain ⟨r2, h5, h4⟩ := bind_ok h4
      have x1 := R.setCell (.inl (hc _)) h5
      obtain ⟨old, h6, h4⟩ := bind_ok h4
      obtain ⟨r3, h7, h4⟩ := bind_ok h4
      cases h4
      split at h7
      · exact x1.setCell (.inl (hc _)) h7
      · cases h7; exact x1
    · cases h4; exact R
  dsimp only at h
  split at h
  · obtain ⟨r2, h5, h⟩ := bind_ok h
    have x1 := R1.setCell (.inl (hc _)) h5
    obtain ⟨old, h6, h⟩ := bind_ok h
    split at h
    · exact x1.setCell (.inl (hc _)) h
    · cases h; exact x1
  · cases h; exact R1

theorem fixClashes_says {cr nl : Nat} (es : List Nat) : ∀ {rows rows' : List Row},
    RowsSay B E Q rows → es.foldlM (fixClash cr nl) rows = .ok rows' → RowsSay B E Q rows' := by
  induction es with
  | nil => intro rows rows' R h; cases h; exact R
  | cons e es ih =>
    intro rows rows' R h
    rw [List.foldlM_cons] at h
    obtain ⟨r1, h1, h⟩ := bind_ok h
    exact ih (fixClash_says R h1) h

theorem hangChain_says {char24 : Bool} {size zeroId id state eolState : Nat} {rows rows' : List Row} {p i : Nat}
    (h7 : 7 ≤ size) (R : RowsSay B E Q rows)
    (h : hangChain char24 size zeroId id state eolState rows = .ok (some (rows', p, i))) : RowsSay B E Q rows' := by
  have hc : ∀ k, 6 < ixTransitions + k := fun k => by simp only [ixTransitions]; omega
  unfold hangChain at h
  obtain ⟨old, h1, h⟩ := bind_ok h
  split at h
  · cases h
  · obtain ⟨r1, h2, h⟩ := bind_ok h
    have y1 := (R.setCell (.inl (hc _)) h2).zeros h7
    dsimp only at h
    generalize r1 ++ [List.replicate size 0] = r2 at h y1
    obtain ⟨r3, h3, h⟩ := bind_ok h
    have z : RowsSay B E Q r3 := by
      split at h3
      · obtain ⟨r4, h4, h3⟩ := bind_ok h3
        cases h3
        exact (y1.setCell (.inl (hc _)) h4).zeros h7
      · cases h3; exact y1
    obtain ⟨r5, h5, h⟩ := bind_ok h
    cases h
    exact z.setCell (.inl (hc _)) h5

theorem fixClashesComp_says {char24 : Bool} {size cr nl zeroId : Nat} (h7 : 7 ≤ size) (es : List Nat) :
    ∀ {i : Nat} {rows rows' : List Row}, RowsSay B E Q rows →
    fixClashesComp char24 size cr nl zeroId es i rows = .ok rows' → RowsSay B E Q rows' := by
  induction es with
  | nil => intro i rows rows' R h; cases h; exact R
  | cons e es ih =>
    intro i rows rows' R h
    unfold fixClashesComp at h
    obtain ⟨eolState, h1, h⟩ := bind_ok h
    obtain ⟨ptr, h2, h⟩ := bind_ok h
    obtain ⟨crState, h3, h⟩ := bind_ok h
    obtain ⟨o, h4, h⟩ := bind_ok h
    split at h
    · exact ih R h
    · rename_i rows1 ptr1 i1
      have F1 : RowsSay B E Q rows1 := by
        split at h4
        · exact hangChain_says h7 R h4
        · cases h4; exact R
      obtain ⟨nlState, h5, h⟩ := bind_ok h
      obtain ⟨o2, h6, h⟩ := bind_ok h
      split at h
      · exact ih F1 h
      · rename_i rows2 ptr2 i2
        have F2 : RowsSay B E Q rows2 := by
          split at h6
          · exact hangChain_says h7 F1 h6
          · cases h6; exact F1
        exact ih F2 h

theorem mapInsert_lt {index n : Nat} (hi : index < n) (is : List Nat) : ∀ {m m' : List (List Nat)},
    (∀ s ∈ m, ∀ i ∈ s, i < n) → mapInsert index is m = some m' → ∀ s ∈ m', ∀ i ∈ s, i < n := by
  induction is with
  | nil => intro m m' h e; cases e; exact h
  | cons i is ih =>
    intro m m' h e
    unfold mapInsert at e
    split at e
    · refine ih ?_ e
      intro s hs j hj
      obtain ⟨k, hk⟩ := List.mem_iff_getElem?.1 hs
      rw [List.getElem?_modify] at hk
      obtain ⟨s0, h0, hk⟩ := Option.map_eq_some_iff.1 hk
      have h1 := h s0 (List.mem_of_getElem? h0)
      split at hk
      · subst hk
        rcases setInsert_mem hj with rfl | hj
        · exact hi
        · exact h1 j hj
      · subst hk; exact h1 j hj
    · cases e

theorem buildSetMapping_lt {n : Nat} (cs : List Charset) : ∀ {index : Nat} {m m' : List (List Nat)},
    index + cs.length ≤ n → (∀ s ∈ m, ∀ i ∈ s, i < n) → buildSetMapping index cs m = some m' →
    ∀ s ∈ m', ∀ i ∈ s, i < n := by
  induction cs with
  | nil => intro index m m' _ h e; cases e; exact h
  | cons c cs ih =>
    intro index m m' hi h e
    rw [List.length_cons] at hi
    unfold buildSetMapping at e
    split at e
    · cases e
    · rename_i m1 h1
      exact ih (by omega) (mapInsert_lt (by omega) _ h h1) e

theorem prepareDfa_lt {m : CharsetMap} {cr nl : Nat} {classes : List Charset}
    {mapping : List (List Nat)} {lk : List Nat} {cr' nl' z : Nat}
    (h : prepareDfa tr true m cr nl = .ok (classes, mapping, lk, cr', nl', z)) :
    ∀ s ∈ mapping, ∀ i ∈ s, i < classes.length := by
  unfold prepareDfa at h
  split at h
  · cases h
  · split at h
    · rename_i mapping' lk' h1 h2
      obtain ⟨_, _, h⟩ := bind_ok h
      obtain ⟨_, _, h⟩ := bind_ok h
      obtain ⟨_, _, h⟩ := bind_ok h
      cases h
      refine buildSetMapping_lt classes (by omega) ?_ h1
      intro s hs i hi
      rw [List.eq_of_mem_replicate hs] at hi
      cases hi
    · cases h

theorem buildDfa_says {allow : Bool} {addr : Nat → Nat} {heap : Heap} {m : CharsetMap} {cr nl : Nat}
    {root : Tree} {used : List Nat} {out : DfaOut} (H : HeapAll (NodeOk tr B E Q) heap)
    (h : buildDfa tr true allow addr heap m cr nl root used = .ok out) : RowsSay B E Q out.rows := by
  unfold buildDfa at h
  obtain ⟨⟨classes, mapping, lk, cr', nl', z⟩, h1, h⟩ := bind_ok h
  dsimp only at h
  have hsz : classes.length + 7 ≤ classes.length + ixTransitions + (if cr' = tr.npos ∧ nl' = tr.npos then 0 else 1) :=
    Nat.le_add_right _ _
  have hm := prepareDfa_lt h1
  generalize classes.length + ixTransitions + (if cr' = tr.npos ∧ nl' = tr.npos then 0 else 1) = size at h hsz
  split at h
  · cases h
  · rename_i hnp
    obtain ⟨⟨t, D⟩, h2, h⟩ := bind_ok h
    have c1 := closure_says (V := ⟨tr, heap, addr, mapping, cr', nl', size, allow⟩) (D := ⟨[List.replicate size 0], [], [], used, []⟩)
      (show 7 ≤ size by omega) H (RowsSay.one (by omega)) h2
    obtain ⟨D2, h3, h⟩ := bind_ok h
    have d1 := buildStates_says (V := ⟨tr, heap, addr, mapping, cr', nl', size, allow⟩) (n := classes.length)
      (show 7 ≤ size by omega) (show classes.length + 2 < tr.npos by omega) hm H _ c1 h3
    obtain ⟨rows, h4, h⟩ := bind_ok h
    cases h
    show RowsSay B E Q rows
    split at h4
    · exact fixClashesComp_says (by omega) _ d1 h4
    · exact fixClashes_says _ d1 h4

/-- The charset maps made for the lexer states stay small. -/
def FewSets (tr : Traits) (R : Rules) : Prop :=
  ∀ rs ∈ R.states, ∀ (b : Bool) (h : Heap) (uid : Nat) (p : PState) (root : Tree) (uid' : Nat),
    buildTree tr b rs h uid = .ok (p, root, uid') → p.charsets.length + 2 ≤ tr.npos

theorem buildLoop_says (hn : 2 < tr.npos) {addr : Nat → Nat} {R : Rules} (hR : FewSets tr R) (rss : List (List Rule)) :
    ∀ {feats : List Nat} {S S' : BuildState}, (∀ rs ∈ rss, rs ∈ R.states) →
    HeapAll (NodeOk tr B E Q) S.heap → (∀ o ∈ S.dfas, RowsSay B E Q o.rows) →
    (∀ rs ∈ rss, ∀ r ∈ rs, (∀ t ∈ r.regex, TokFit B E t) ∧ Q r.id r.pushDfa r.popDfa) →
    (∀ f ∈ feats.take rss.length, hasBit f 1 = true → B) →
    buildLoop tr true addr R rss feats S = .ok S' →
    ∀ o ∈ S'.dfas, RowsSay B E Q o.rows := by
  induction rss with
  | nil => intro feats S S' _ _ H2 _ _ h; cases h; exact H2
  | cons rs rss ih =>
    intro feats S S' hs H1 H2 H3 H4 h
    unfold buildLoop at h
    split at h
    · cases h
    · dsimp only at h
      obtain ⟨⟨p, root, uid⟩, h1, h⟩ := bind_ok h
      obtain ⟨_, h2, h⟩ := bind_ok h
      obtain ⟨out, h3, h⟩ := bind_ok h
      have hb : hasBit (feats.headD 0) 1 = true → B := by
        cases feats with
        | nil => intro h; cases h
        | cons f fs => exact H4 f (by simp)
      have p1 := buildTree_steps hn hb H1 (fun r hr => H3 rs (by simp) r hr) h1 (hR rs (hs rs (by simp)) _ _ _ _ _ _ h1)
      have b1 := buildDfa_says p1 h3
      split at h
      · cases h
      · refine ih (S := ⟨p.heap, out.used, uid, S.dfas ++ [out]⟩) (fun rs' h => hs rs' (by simp [h])) p1 ?_
          (fun rs' h => H3 rs' (by simp [h])) ?_ h
        · intro o ho
          rcases List.mem_append.1 ho with ho | ho
          · exact H2 o ho
          · rw [List.mem_singleton.1 ho]; exact b1
        · intro f hf
          refine H4 f ?_
          cases feats with
          | nil => simp at hf
          | cons g gs => simp only [List.tail_cons] at hf; simp [hf]

theorem buildTemp_says (hn : 2 < tr.npos) {addr : Nat → Nat} {R : Rules} {sm : Internals} (hR : FewSets tr R)
    (H3 : ∀ rs ∈ R.states, ∀ r ∈ rs, (∀ t ∈ r.regex, TokFit B E t) ∧ Q r.id r.pushDfa r.popDfa)
    (H4 : ∀ f ∈ R.features.take R.states.length, hasBit f 1 = true → B) (h : buildTemp tr addr R = .ok sm) :
    ∀ rows ∈ sm.dfa, RowsSay B E Q rows := by
  unfold buildTemp at h
  obtain ⟨S, h1, h⟩ := bind_ok h
  obtain ⟨_, h2, h⟩ := bind_ok h
  cases h
  have g := buildLoop_says hn hR R.states (fun _ h => h) (S := ⟨[], [], 0, []⟩) (fun c hc => (nomatch hc))
    (fun o ho => (nomatch ho)) H3 H4 h1
  intro rows hrows
  obtain ⟨o, ho, rfl⟩ := List.mem_map.1 hrows
  exact g o ho

end Lexertl.Feat
