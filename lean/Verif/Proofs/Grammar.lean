import Verif.Spec.Regex

/-
The regex grammar of `Spec.Derives` is unambiguous.
-/
namespace Lexertl
open Spec

/-- Depth of parentheses: opened minus closed. -/
def depth : List Tok → Int
  | [] => 0
  | t :: ts => (if t.type = .openparen then 1 else if t.type = .closeparen then -1 else 0) + depth ts

theorem depth_append (a b : List Tok) : depth (a ++ b) = depth a + depth b := by
  induction a with
  | nil => simp [depth]
  | cons t a ih => simp only [List.cons_append, depth, ih]; omega

/-- Postfix operator tokens are neither parentheses nor `|`. -/
theorem postfix_type {d : Tok} {r q : Re} (h : Postfix d r q) :
    d.type ≠ .openparen ∧ d.type ≠ .closeparen ∧ d.type ≠ .or_ ∧ d.type ≠ .charset ∧ d.type ≠ .bol ∧ d.type ≠ .eol := by
  cases h <;> refine ⟨?_, ?_, ?_, ?_, ?_, ?_⟩ <;> (intro h; cases h)

/-- A phrase is balanced, no prefix closes more than it opens, and at levels above `alt`
every `|` is inside parentheses. -/
theorem derives_depth {l : Level} {ts : List Tok} {r : Re} (h : Derives l ts r) :
    depth ts = 0 ∧ (∀ u v, ts = u ++ v → 0 ≤ depth u) ∧
    (l ≠ .alt → ∀ u v o, ts = u ++ o :: v → o.type = .or_ → 1 ≤ depth u) ∧
    (l = .atom → ∀ u v, ts = u ++ v → u ≠ [] → v ≠ [] → 1 ≤ depth u) := by
  have single : ∀ t : Tok, t.type ≠ .openparen → t.type ≠ .closeparen → t.type ≠ .or_ →
      depth [t] = 0 ∧ (∀ u v, [t] = u ++ v → 0 ≤ depth u) ∧
      (∀ u v o, [t] = u ++ o :: v → o.type = .or_ → 1 ≤ depth u) ∧
      (∀ u v, [t] = u ++ v → u ≠ [] → v ≠ [] → 1 ≤ depth u) := by
    intro t h1 h2 h3
    have h0 : depth [t] = 0 := by simp [depth, h1, h2]
    refine ⟨h0, ?_, ?_, ?_⟩
    · intro u v huv
      cases u with
      | nil => simp [depth]
      | cons a u =>
        simp only [List.cons_append, List.cons.injEq, List.nil_eq, List.append_eq_nil_iff] at huv
        obtain ⟨rfl, rfl, rfl⟩ := huv
        omega
    · intro u v o huv ho
      cases u with
      | nil =>
        simp only [List.nil_append, List.cons.injEq] at huv
        obtain ⟨rfl, _⟩ := huv
        exact absurd ho h3
      | cons a u => simp at huv
    · intro u v huv hu hv
      cases u with
      | nil => exact absurd rfl hu
      | cons a u =>
        simp only [List.cons_append, List.cons.injEq, List.nil_eq, List.append_eq_nil_iff] at huv
        exact absurd huv.2.2 hv
  induction h with
  | charset e s =>
    have := single ⟨.charset, e, s⟩ (by simp) (by simp) (by simp)
    exact ⟨this.1, this.2.1, fun _ => this.2.2.1, fun _ => this.2.2.2⟩
  | bol e s =>
    have := single ⟨.bol, e, s⟩ (by simp) (by simp) (by simp)
    exact ⟨this.1, this.2.1, fun _ => this.2.2.1, fun _ => this.2.2.2⟩
  | eol e s =>
    have := single ⟨.eol, e, s⟩ (by simp) (by simp) (by simp)
    exact ⟨this.1, this.2.1, fun _ => this.2.2.1, fun _ => this.2.2.2⟩
  | paren o c ts r ho hc _ ih =>
    obtain ⟨d1, d2, _, _⟩ := ih
    have dO : depth [o] = 1 := by simp [depth, ho]
    have dC : depth [c] = -1 := by simp [depth, hc]
    have dts : ∀ us, depth (o :: us) = 1 + depth us := by intro us; simp [depth, ho]
    -- prefixes
    have pre : ∀ u v, o :: ts ++ [c] = u ++ v → u ≠ [] → v ≠ [] → 1 ≤ depth u := by
      intro u v huv hu hv
      cases u with
      | nil => exact absurd rfl hu
      | cons a u =>
        simp only [List.cons_append, List.cons.injEq] at huv
        obtain ⟨rfl, huv⟩ := huv
        rw [dts]
        rcases List.eq_nil_or_concat v with rfl | ⟨v', x, rfl⟩
        · exact absurd rfl hv
        · rw [List.concat_eq_append, ← List.append_assoc] at huv
          have := List.append_inj' huv rfl
          have := d2 u v' this.1
          omega
    refine ⟨?_, ?_, ?_, fun _ => pre⟩
    · rw [List.cons_append, dts, depth_append, d1, dC]; omega
    · intro u v huv
      by_cases hu : u = []
      · subst hu; simp [depth]
      · by_cases hv : v = []
        · subst hv
          rw [List.append_nil] at huv
          rw [← huv, List.cons_append, dts, depth_append, d1, dC]; omega
        · have := pre u v huv hu hv; omega
    · intro _ u v x huv hx
      by_cases hu : u = []
      · subst hu
        simp only [List.cons_append, List.nil_append, List.cons.injEq] at huv
        rw [← huv.1, ho] at hx
        cases hx
      · exact pre u (x :: v) huv hu (by simp)
  | item ts r _ ih => exact ⟨ih.1, ih.2.1, fun _ => ih.2.2.1 (by simp), fun h => by cases h⟩
  | postfix_ ts r d q _ hq ih =>
    obtain ⟨p1, p2, p3, _⟩ := postfix_type hq
    have dD : depth [d] = 0 := by simp [depth, p1, p2]
    obtain ⟨d1, d2, d3, _⟩ := ih
    refine ⟨by rw [depth_append, d1, dD]; rfl, ?_, ?_, fun h => by cases h⟩
    · intro u v huv
      rcases List.eq_nil_or_concat v with rfl | ⟨v', x, rfl⟩
      · rw [List.append_nil] at huv
        rw [← huv, depth_append, d1, dD]; omega
      · rw [List.concat_eq_append, ← List.append_assoc] at huv
        exact d2 u v' (List.append_inj' huv rfl).1
    · intro _ u v o huv ho
      rcases List.eq_nil_or_concat v with rfl | ⟨v', x, rfl⟩
      · have := (List.append_inj' huv rfl).2
        simp only [List.cons.injEq, and_true] at this
        exact absurd (this ▸ ho) p3
      · rw [List.concat_eq_append, show u ++ o :: (v' ++ [x]) = (u ++ o :: v') ++ [x] by simp] at huv
        exact d3 (by simp) u v' o (List.append_inj' huv rfl).1 ho
  | seq1 ts r _ ih => exact ⟨ih.1, ih.2.1, fun _ => ih.2.2.1 (by simp), fun h => by cases h⟩
  | seq ts us l r _ _ ih1 ih2 =>
    obtain ⟨d1, d2, d3, _⟩ := ih1
    obtain ⟨e1, e2, e3, _⟩ := ih2
    refine ⟨by rw [depth_append, d1, e1]; rfl, ?_, ?_, fun h => by cases h⟩
    · intro u v huv
      rcases List.append_eq_append_iff.1 huv with ⟨w, h1, h2⟩ | ⟨w, h1, h2⟩
      · rw [h1, depth_append, d1]
        have := e2 w v h2
        omega
      · exact d2 u w h1
    · intro _ u v o huv ho
      rcases List.append_eq_append_iff.1 huv with ⟨w, h1, h2⟩ | ⟨w, h1, h2⟩
      · rw [h1, depth_append, d1]
        have := e3 (by simp) w v o h2 ho
        omega
      · cases w with
        | nil =>
          rw [List.append_nil] at h1
          have := e3 (by simp) [] v o h2.symm ho
          simp [depth] at this
        | cons a w =>
          simp only [List.cons_append, List.cons.injEq] at h2
          exact d3 (by simp) u w o (by rw [h1, h2.1]) ho
  | alt1 ts r _ ih => exact ⟨ih.1, ih.2.1, fun h => absurd rfl h, fun h => by cases h⟩
  | alt ts us o l r ho _ _ ih1 ih2 =>
    obtain ⟨d1, d2, _, _⟩ := ih1
    obtain ⟨e1, e2, _, _⟩ := ih2
    have dO : depth [o] = 0 := by simp [depth, ho]
    have dts : ∀ us, depth (o :: us) = depth us := by intro us; simp [depth, ho]
    refine ⟨by rw [depth_append, d1, dts, e1]; rfl, ?_, fun h => absurd rfl h, fun h => by cases h⟩
    intro u v huv
    rcases List.append_eq_append_iff.1 huv with ⟨w, h1, h2⟩ | ⟨w, h1, h2⟩
    · rw [h1, depth_append, d1]
      cases w with
      | nil => simp [depth]
      | cons a w =>
        simp only [List.cons_append, List.cons.injEq] at h2
        rw [← h2.1, dts]
        have := e2 w v h2.2
        omega
    · exact d2 u w h1

theorem derives_nonempty {l : Level} {ts : List Tok} {r : Re} (h : Derives l ts r) : ts ≠ [] := by
  induction h <;> simp_all

/-- Last token of an atom. -/
theorem atom_last {ts : List Tok} {r : Re} (h : Derives .atom ts r) : ∃ us t, ts = us ++ [t] ∧
    (t.type = .charset ∨ t.type = .bol ∨ t.type = .eol ∨ t.type = .closeparen) := by
  cases h with
  | charset e s => exact ⟨[], _, rfl, .inl rfl⟩
  | bol e s => exact ⟨[], _, rfl, .inr (.inl rfl)⟩
  | eol e s => exact ⟨[], _, rfl, .inr (.inr (.inl rfl))⟩
  | paren o c ts r ho hc h => exact ⟨o :: ts, c, rfl, .inr (.inr (.inr hc))⟩

/-- An atom has no atom as a proper suffix. -/
theorem atom_suffix {ts us v : List Tok} {r q : Re} (h1 : Derives .atom ts r) (h2 : Derives .atom us q)
    (h : ts = v ++ us) : v = [] := by
  refine Classical.byContradiction fun hv => ?_
  have := (derives_depth h1).2.2.2 rfl v us h hv (derives_nonempty h2)
  have e1 := (derives_depth h1).1
  have e2 := (derives_depth h2).1
  rw [h, depth_append, e2] at e1
  omega

/-- An item is an atom, or an atom and a postfix operator. -/
theorem item_cases {ts : List Tok} {r : Re} (h : Derives .item ts r) : Derives .atom ts r ∨
    ∃ us q d, ts = us ++ [d] ∧ Derives .atom us q ∧ Postfix d q r := by
  cases h with
  | item ts r h => exact .inl h
  | postfix_ ts q d r h1 h2 => exact .inr ⟨ts, q, d, rfl, h1, h2⟩

/-- An item has no item as a proper suffix. -/
theorem item_suffix {ts us v : List Tok} {r q : Re} (h1 : Derives .item ts r) (h2 : Derives .item us q)
    (h : ts = v ++ us) : v = [] := by
  have clash : ∀ {ts us v : List Tok} {r q s : Re} {d : Tok}, Derives .atom ts r → Postfix d q s →
      ts = v ++ (us ++ [d]) → False := by
    intro ts us v r q s d h1 h2 h
    obtain ⟨a, t, rfl, ht⟩ := atom_last h1
    rw [← List.append_assoc] at h
    have := (List.append_inj' h rfl).2
    simp only [List.cons.injEq, and_true] at this
    subst this
    obtain ⟨p1, p2, p3, p4, p5, p6⟩ := postfix_type h2
    rcases ht with h | h | h | h
    · exact p4 h
    · exact p5 h
    · exact p6 h
    · exact p2 h
  have clash' : ∀ {ts us v : List Tok} {r q s : Re} {d : Tok}, Derives .atom us r → Postfix d q s →
      ts ++ [d] = v ++ us → False := by
    intro ts us v r q s d h1 h2 h
    obtain ⟨a, t, rfl, ht⟩ := atom_last h1
    rw [← List.append_assoc] at h
    have := (List.append_inj' h rfl).2
    simp only [List.cons.injEq, and_true] at this
    subst this
    obtain ⟨p1, p2, p3, p4, p5, p6⟩ := postfix_type h2
    rcases ht with h | h | h | h
    · exact p4 h
    · exact p5 h
    · exact p6 h
    · exact p2 h
  rcases item_cases h1 with g1 | ⟨a1, q1, d1, rfl, g1, k1⟩
  · rcases item_cases h2 with g2 | ⟨a2, q2, d2, rfl, g2, k2⟩
    · exact atom_suffix g1 g2 h
    · exact (clash g1 k2 h).elim
  · rcases item_cases h2 with g2 | ⟨a2, q2, d2, rfl, g2, k2⟩
    · exact (clash' g2 k1 h).elim
    · rw [← List.append_assoc] at h
      exact atom_suffix g1 g2 (List.append_inj' h rfl).1

/-- Counts of a repetition are determined by its text. -/
theorem count_unique {e : List Nat} {lo lo' : Nat} {hi hi' : Option Nat} (h1 : Count e lo hi)
    (h2 : Count e lo' hi') : lo = lo' ∧ hi = hi' := by
  have split : ∀ {ds ds' r r' : List Nat}, (∀ c ∈ ds, 48 ≤ c ∧ c ≤ 57) → (∀ c ∈ ds', 48 ≤ c ∧ c ≤ 57) →
      ds ++ 44 :: r = ds' ++ 44 :: r' → ds = ds' ∧ r = r' := by
    intro ds
    induction ds with
    | nil =>
      intro ds' r r' h1 h2 h
      cases ds' with
      | nil => simp at h; exact ⟨rfl, h⟩
      | cons c ds' =>
        simp at h
        have := h2 c (by simp)
        omega
    | cons c ds ih =>
      intro ds' r r' h1 h2 h
      cases ds' with
      | nil =>
        simp at h
        have := h1 c (by simp)
        omega
      | cons c' ds' =>
        simp only [List.cons_append, List.cons.injEq] at h
        obtain ⟨rfl, h⟩ := h
        obtain ⟨rfl, rfl⟩ := ih (fun c hc => h1 c (by simp [hc])) (fun c hc => h2 c (by simp [hc])) h
        exact ⟨rfl, rfl⟩
  have nocomma : ∀ {ds ds' r : List Nat}, (∀ c ∈ ds, 48 ≤ c ∧ c ≤ 57) → ds = ds' ++ 44 :: r → False := by
    intro ds ds' r h h'
    have := h 44 (by rw [h']; simp)
    omega
  generalize hg : e = e' at h2
  cases h1 with
  | exact ds d1 d2 =>
    cases h2 with
    | exact ds' _ _ => subst hg; exact ⟨rfl, rfl⟩
    | atLeast ds' _ _ => exact (nocomma d1.2 hg).elim
    | between ds' es' _ _ _ _ => exact (nocomma d1.2 hg).elim
  | atLeast ds d1 d2 =>
    cases h2 with
    | exact ds' e1 _ => exact (nocomma e1.2 hg.symm).elim
    | atLeast ds' e1 _ => obtain ⟨rfl, _⟩ := split d1.2 e1.2 hg; exact ⟨rfl, rfl⟩
    | between ds' es' e1 e2 _ _ =>
      obtain ⟨rfl, h⟩ := split d1.2 e1 hg
      exact absurd h.symm e2.1
  | between ds es d1 d2 _ _ =>
    cases h2 with
    | exact ds' e1 _ => exact (nocomma e1.2 hg.symm).elim
    | atLeast ds' e1 _ =>
      obtain ⟨rfl, h⟩ := split d1 e1.2 hg
      exact absurd h d2.1
    | between ds' es' e1 e2 _ _ => obtain ⟨rfl, rfl⟩ := split d1 e1 hg; exact ⟨rfl, rfl⟩

theorem postfix_unique {d : Tok} {r q q' : Re} (h1 : Postfix d r q) (h2 : Postfix d r q') : q = q' := by
  cases h1 <;> cases h2 <;> try rfl
  · rename_i c1 _ _ c2; obtain ⟨rfl, rfl⟩ := count_unique c1 c2; rfl
  · rename_i c1 _ _ c2; obtain ⟨rfl, rfl⟩ := count_unique c1 c2; rfl

/-- A token sequence derives at most one expression at each level. -/
theorem derives_unique {l : Level} {ts : List Tok} {r : Re} (h : Derives l ts r) :
    ∀ {q : Re}, Derives l ts q → r = q := by
  induction h with
  | charset e s =>
    intro q h2
    generalize hg : [(⟨.charset, e, s⟩ : Tok)] = us at h2
    cases h2 with
    | charset e s => cases hg; rfl
    | bol e s => cases hg
    | eol e s => cases hg
    | paren o c ts r ho hc h =>
      simp only [List.cons_append, List.cons.injEq] at hg
      rw [← hg.1] at ho; cases ho
  | bol e s =>
    intro q h2
    generalize hg : [(⟨.bol, e, s⟩ : Tok)] = us at h2
    cases h2 with
    | charset e s => cases hg
    | bol e s => rfl
    | eol e s => cases hg
    | paren o c ts r ho hc h =>
      simp only [List.cons_append, List.cons.injEq] at hg
      rw [← hg.1] at ho; cases ho
  | eol e s =>
    intro q h2
    generalize hg : [(⟨.eol, e, s⟩ : Tok)] = us at h2
    cases h2 with
    | charset e s => cases hg
    | bol e s => cases hg
    | eol e s => rfl
    | paren o c ts r ho hc h =>
      simp only [List.cons_append, List.cons.injEq] at hg
      rw [← hg.1] at ho; cases ho
  | paren o c ts r ho hc h ih =>
    intro q h2
    generalize hg : o :: ts ++ [c] = us at h2
    cases h2 with
    | charset e s => simp only [List.cons_append, List.cons.injEq] at hg; rw [hg.1] at ho; cases ho
    | bol e s => simp only [List.cons_append, List.cons.injEq] at hg; rw [hg.1] at ho; cases ho
    | eol e s => simp only [List.cons_append, List.cons.injEq] at hg; rw [hg.1] at ho; cases ho
    | paren o' c' ts' r' ho' hc' h' =>
      simp only [List.cons_append, List.cons.injEq] at hg
      obtain ⟨_, hg⟩ := hg
      have := (List.append_inj' hg rfl).1
      subst this
      exact ih h'
  | item ts r h ih =>
    intro q h2
    rcases item_cases h2 with g | ⟨us, q', d, rfl, g, k⟩
    · exact ih g
    · have := item_suffix (.item _ _ h) (.postfix_ _ _ _ _ g k) (v := []) rfl
      obtain ⟨a, t, ha, ht⟩ := atom_last h
      have := (List.append_inj' ha rfl).2
      simp only [List.cons.injEq, and_true] at this
      subst this
      obtain ⟨p1, p2, p3, p4, p5, p6⟩ := postfix_type k
      rcases ht with h | h | h | h
      · exact absurd h p4
      · exact absurd h p5
      · exact absurd h p6
      · exact absurd h p2
  | postfix_ ts r d q h hq ih =>
    intro q2 h2
    generalize hg : ts ++ [d] = us at h2
    rcases item_cases h2 with g | ⟨us', q', d', rfl, g, k⟩
    · subst hg
      obtain ⟨a, t, ha, ht⟩ := atom_last g
      have := (List.append_inj' ha rfl).2
      simp only [List.cons.injEq, and_true] at this
      subst this
      obtain ⟨p1, p2, p3, p4, p5, p6⟩ := postfix_type hq
      rcases ht with h | h | h | h
      · exact absurd h p4
      · exact absurd h p5
      · exact absurd h p6
      · exact absurd h p2
    · obtain ⟨e1, e2⟩ := List.append_inj' hg rfl
      simp only [List.cons.injEq, and_true] at e2
      subst e1 e2
      have := ih g
      subst this
      exact postfix_unique hq k
  | seq1 ts r h ih =>
    intro q h2
    generalize hg : ts = us at h2
    cases h2 with
    | seq1 us q h2 => subst hg; exact ih h2
    | seq us vs l r h3 h4 =>
      have := item_suffix h h4 hg
      exact absurd this (derives_nonempty h3)
  | seq ts us l r h1 h2 ih1 ih2 =>
    intro q h3
    generalize hg : ts ++ us = vs at h3
    cases h3 with
    | seq1 us' q h3 =>
      exact absurd (item_suffix h3 h2 hg.symm) (derives_nonempty h1)
    | seq ts' us' l' r' h3 h4 =>
      have key : ts = ts' ∧ us = us' := by
        rcases List.append_eq_append_iff.1 hg with ⟨w, e1, e2⟩ | ⟨w, e1, e2⟩
        · have := item_suffix h2 h4 e2
          subst this
          simp at e1 e2
          exact ⟨e1.symm, e2⟩
        · have := item_suffix h4 h2 e2
          subst this
          simp at e1 e2
          exact ⟨e1, e2.symm⟩
      obtain ⟨rfl, rfl⟩ := key
      rw [ih1 h3, ih2 h4]
  | alt1 ts r h ih =>
    intro q h2
    generalize hg : ts = us at h2
    cases h2 with
    | alt1 us q h2 => subst hg; exact ih h2
    | alt us vs o l r ho h3 h4 =>
      have := (derives_depth h).2.2.1 (by simp) us vs o hg ho
      rw [(derives_depth h3).1] at this
      omega
  | alt ts us o l r ho h1 h2 ih1 ih2 =>
    intro q h3
    generalize hg : ts ++ o :: us = vs at h3
    cases h3 with
    | alt1 us' q h3 =>
      have := (derives_depth h3).2.2.1 (by simp) ts us o hg.symm ho
      rw [(derives_depth h1).1] at this
      omega
    | alt ts' us' o' l' r' ho' h3 h4 =>
      have key : ts = ts' ∧ us = us' := by
        rcases List.append_eq_append_iff.1 hg with ⟨w, e1, e2⟩ | ⟨w, e1, e2⟩
        · cases w with
          | nil =>
            simp at e1 e2
            exact ⟨e1.symm, e2.2⟩
          | cons a w =>
            simp only [List.cons_append, List.cons.injEq] at e2
            obtain ⟨rfl, e2⟩ := e2
            have d1 := (derives_depth h2).2.2.1 (by simp) w us' o' e2 ho'
            have d2 := (derives_depth h3).1
            rw [e1, depth_append, (derives_depth h1).1] at d2
            simp only [depth, ho] at d2
            simp at d2
            omega
        · cases w with
          | nil =>
            simp at e1 e2
            exact ⟨e1, e2.2.symm⟩
          | cons a w =>
            simp only [List.cons_append, List.cons.injEq] at e2
            obtain ⟨rfl, e2⟩ := e2
            have d1 := (derives_depth h4).2.2.1 (by simp) w us o e2 ho
            have d2 := (derives_depth h1).1
            rw [e1, depth_append, (derives_depth h3).1] at d2
            simp only [depth, ho'] at d2
            simp at d2
            omega
      obtain ⟨rfl, rfl⟩ := key
      rw [ih1 h3, ih2 h4]

end Lexertl
