import Verif.Model.Partition

/-
Correctness of the generic splitting loop: the output is a disjoint family with
the same union as the input, and the payload of the piece holding a point is
the combination, in input order, of the payloads of the inputs holding it.
-/
namespace Lexertl

structure SplitLaws {α X P : Type} (isect : α → α → Option (α × α × α)) (isEmpty : α → Bool)
    (dom : α → X → Bool) (pay : α → P) (comb : P → P → P) (ok : α → Prop) : Prop where
  empty_iff : ∀ a, ok a → (isEmpty a = true ↔ ∀ x, dom a x = false)
  isect_ok : ∀ l r, ok l → ok r → ∃ l' r' ov, isect l r = some (l', r', ov) ∧
    ok l' ∧ ok r' ∧ ok ov ∧
    (∀ x, dom l' x = (dom l x && !dom r x)) ∧
    (∀ x, dom r' x = (dom r x && !dom l x)) ∧
    (∀ x, dom ov x = (dom l x && dom r x)) ∧
    (isEmpty l' = false → pay l' = pay l) ∧
    (isEmpty r' = false → pay r' = pay r) ∧
    (isEmpty ov = false → pay ov = comb (pay l) (pay r))

section
variable {α X P : Type} {isect : α → α → Option (α × α × α)} {isEmpty : α → Bool}
  {dom : α → X → Bool} {pay : α → P} {comb : P → P → P} {ok : α → Prop}

/-- Payloads of the members of `L` that contain `x`. -/
def hits (dom : α → X → Bool) (pay : α → P) (x : X) (L : List α) : List P :=
  (L.filter (fun a => dom a x)).map pay

theorem hits_nil (x : X) : hits dom pay x ([] : List α) = [] := rfl

theorem hits_cons (x : X) (a : α) (L : List α) :
    hits dom pay x (a :: L) = (if dom a x then [pay a] else []) ++ hits dom pay x L := by
  unfold hits
  cases h : dom a x <;> simp [h]

theorem hits_append (x : X) (L L' : List α) :
    hits dom pay x (L ++ L') = hits dom pay x L ++ hits dom pay x L' := by
  simp [hits]

/-- What adding `r` does to the (at most one) payload at `x`. -/
def addPay (comb : P → P → P) (H : List P) (b : Bool) (p : P) : List P :=
  if b then (match H with | [] => [p] | h :: _ => [comb h p]) else H

theorem splitInto_spec (W : SplitLaws isect isEmpty dom pay comb ok) :
    ∀ (L : List α) (r : α), ok r → (∀ a ∈ L, ok a ∧ isEmpty a = false) →
      (∀ x, (hits dom pay x L).length ≤ 1) →
      ∃ L' r', splitInto isect isEmpty r L = some (L', r') ∧ ok r' ∧
        (∀ a ∈ L', ok a ∧ isEmpty a = false) ∧
        (∀ x, hits dom pay x (L' ++ [r']) = addPay comb (hits dom pay x L) (dom r x) (pay r)) := by
  intro L
  induction L with
  | nil =>
    intro r hr _ _
    refine ⟨[], r, rfl, hr, by simp, ?_⟩
    intro x
    cases h : dom r x <;> simp [addPay, hits, h]
  | cons l ls ih =>
    intro r hr hL hone
    have hl := hL l (by simp)
    have hls : ∀ a ∈ ls, ok a ∧ isEmpty a = false := fun a ha => hL a (by simp [ha])
    unfold splitInto
    cases hre : isEmpty r with
    | true =>
      refine ⟨l :: ls, r, by simp, hr, hL, ?_⟩
      intro x
      have hd := (W.empty_iff r hr).1 hre x
      rw [hits_append, hits_cons x r, hd, hits_nil]
      simp [addPay]
    | false =>
      obtain ⟨l', r', ov, he, okl, okr, oko, dl, dr, dov, pl, pr, po⟩ := W.isect_ok l r hl.1 hr
      simp only [he, Bool.false_eq_true, if_false]
      have hone' : ∀ x, (hits dom pay x ls).length ≤ 1 := by
        intro x
        have := hone x
        rw [hits_cons] at this
        simp only [List.length_append] at this
        omega
      have hnil : ∀ x, dom l x = true → hits dom pay x ls = [] := by
        intro x hx
        have := hone x
        rw [hits_cons, hx] at this
        simp only [if_true, List.length_append, List.length_cons, List.length_nil] at this
        exact List.eq_nil_of_length_eq_zero (by omega)
      obtain ⟨L', r'', hsp, okr'', okL', hh⟩ := ih r' okr hls hone'
      have hne : ∀ a x, ok a → dom a x = true → isEmpty a = false := by
        intro a x hoka hd
        cases h : isEmpty a with
        | false => rfl
        | true => have := (W.empty_iff a hoka).1 h x; simp [this] at hd
      cases hoe : isEmpty ov with
      | true =>
        have hdisj := (W.empty_iff ov oko).1 hoe
        simp only [if_true, hsp, Option.map_some]
        refine ⟨_, _, rfl, okr'', ?_, ?_⟩
        · intro a ha
          rcases List.mem_cons.1 ha with rfl | ha
          · refine ⟨okl, ?_⟩
            cases h : isEmpty a with
            | false => rfl
            | true =>
              have h1 := (W.empty_iff a okl).1 h
              have h2 : isEmpty l = true := (W.empty_iff l hl.1).2 (by
                intro x
                have a1 := h1 x; have a2 := hdisj x
                rw [dl] at a1; rw [dov] at a2
                cases h3 : dom l x <;> cases h4 : dom r x <;> simp_all)
              rw [hl.2] at h2; cases h2
          · exact okL' a ha
        · intro x
          simp only [List.cons_append]
          rw [hits_cons, hh x, hits_cons]
          have a2 := hdisj x
          rw [dov] at a2
          cases h3 : dom l x with
          | true =>
            have h4 : dom r x = false := by rw [h3] at a2; simpa using a2
            have hl' : dom l' x = true := by rw [dl, h3, h4]; rfl
            have hr' : dom r' x = false := by rw [dr, h3, h4]; rfl
            rw [hl', hr', h4, pl (hne l' x okl hl')]
            simp [addPay]
          | false =>
            have hl' : dom l' x = false := by rw [dl, h3]; rfl
            have hr' : dom r' x = dom r x := by rw [dr, h3]; simp
            rw [hl', hr']
            cases h4 : dom r x with
            | false => simp [addPay]
            | true =>
              have : pay r' = pay r := pr (hne r' x okr (by rw [hr', h4]))
              simp [addPay, this]
      | false =>
        simp only [Bool.false_eq_true, if_false]
        cases hle : isEmpty l' with
        | true =>
          have hsub := (W.empty_iff l' okl).1 hle
          simp only [if_true, hsp, Option.map_some]
          refine ⟨_, _, rfl, okr'', ?_, ?_⟩
          · intro a ha
            rcases List.mem_cons.1 ha with rfl | ha
            · exact ⟨oko, hoe⟩
            · exact okL' a ha
          · intro x
            simp only [List.cons_append]
            rw [hits_cons, hh x, hits_cons]
            have a2 := hsub x
            rw [dl] at a2
            cases h3 : dom l x with
            | true =>
              have h4 : dom r x = true := by rw [h3] at a2; simpa using a2
              have ho' : dom ov x = true := by rw [dov, h3, h4]; rfl
              have hr' : dom r' x = false := by rw [dr, h3]; simp
              rw [ho', hr', h4, po hoe, hnil x h3]
              simp [addPay]
            | false =>
              have ho' : dom ov x = false := by rw [dov, h3]; rfl
              have hr' : dom r' x = dom r x := by rw [dr, h3]; simp
              rw [ho', hr']
              cases h4 : dom r x with
              | false => simp [addPay]
              | true =>
                have : pay r' = pay r := pr (hne r' x okr (by rw [hr', h4]))
                simp [addPay, this]
        | false =>
          simp only [Bool.false_eq_true, if_false]
          cases hre' : isEmpty r' with
          | true =>
            have hsub := (W.empty_iff r' okr).1 hre'
            simp only [if_true]
            refine ⟨_, _, rfl, oko, ?_, ?_⟩
            · intro a ha
              rcases List.mem_cons.1 ha with rfl | ha
              · exact ⟨okl, hle⟩
              · exact hls a ha
            · intro x
              rw [hits_append, hits_cons, hits_cons, hits_cons, hits_nil]
              have a2 := hsub x
              rw [dr] at a2
              cases h3 : dom l x with
              | true =>
                rw [hnil x h3]
                cases h4 : dom r x with
                | true =>
                  have ho' : dom ov x = true := by rw [dov, h3, h4]; rfl
                  have hl' : dom l' x = false := by rw [dl, h3, h4]; rfl
                  simp [ho', hl', addPay, po hoe]
                | false =>
                  have ho' : dom ov x = false := by rw [dov, h3, h4]; rfl
                  have hl' : dom l' x = true := by rw [dl, h3, h4]; rfl
                  simp [ho', hl', addPay, pl hle]
              | false =>
                have h4 : dom r x = false := by rw [h3] at a2; simpa using a2
                have ho' : dom ov x = false := by rw [dov, h3, h4]; rfl
                have hl' : dom l' x = false := by rw [dl, h3, h4]; rfl
                simp [ho', hl', h4, addPay]
          | false =>
            simp only [Bool.false_eq_true, if_false, hsp, Option.map_some]
            refine ⟨_, _, rfl, okr'', ?_, ?_⟩
            · intro a ha
              rcases List.mem_cons.1 ha with rfl | ha
              · exact ⟨okl, hle⟩
              rcases List.mem_cons.1 ha with rfl | ha
              · exact ⟨oko, hoe⟩
              · exact okL' a ha
            · intro x
              simp only [List.cons_append]
              rw [hits_cons, hits_cons, hh x, hits_cons]
              cases h3 : dom l x with
              | true =>
                have hr' : dom r' x = false := by rw [dr, h3]; simp
                rw [hr', hnil x h3]
                cases h4 : dom r x with
                | true =>
                  have ho' : dom ov x = true := by rw [dov, h3, h4]; rfl
                  have hl' : dom l' x = false := by rw [dl, h3, h4]; rfl
                  simp [ho', hl', addPay, po hoe]
                | false =>
                  have ho' : dom ov x = false := by rw [dov, h3, h4]; rfl
                  have hl' : dom l' x = true := by rw [dl, h3, h4]; rfl
                  simp [ho', hl', addPay, pl hle]
              | false =>
                have ho' : dom ov x = false := by rw [dov, h3]; rfl
                have hl' : dom l' x = false := by rw [dl, h3]; rfl
                have hr' : dom r' x = dom r x := by rw [dr, h3]; simp
                rw [ho', hl', hr']
                cases h4 : dom r x with
                | false => simp [addPay]
                | true =>
                  have : pay r' = pay r := pr (hne r' x okr (by rw [hr', h4]))
                  simp [addPay, this]

/-- Left fold of the payloads of the inputs that hold `x`. -/
def foldPay (comb : P → P → P) : List P → List P
  | [] => []
  | p :: ps => [ps.foldl comb p]

theorem addPay_len (H : List P) (b : Bool) (p : P) (h : H.length ≤ 1) :
    (addPay comb H b p).length ≤ 1 := by
  unfold addPay
  cases b
  · simpa using h
  · cases H <;> simp

theorem splitLoop_spec (W : SplitLaws isect isEmpty dom pay comb ok) :
    ∀ (R L : List α), (∀ a ∈ R, ok a) → (∀ a ∈ L, ok a ∧ isEmpty a = false) →
      (∀ x, (hits dom pay x L).length ≤ 1) →
      ∃ out, splitLoop isect isEmpty L R = some out ∧
        (∀ a ∈ out, ok a ∧ isEmpty a = false) ∧
        (∀ x, hits dom pay x out = foldPay comb (hits dom pay x L ++ hits dom pay x R)) := by
  intro R
  induction R with
  | nil =>
    intro L _ hL hone
    refine ⟨L, rfl, hL, ?_⟩
    intro x
    have := hone x
    rw [hits_nil, List.append_nil]
    match hq : hits dom pay x L with
    | [] => rfl
    | [p] => rfl
    | p :: q :: t => rw [hq] at this; simp at this
  | cons r R ih =>
    intro L hR hL hone
    obtain ⟨L', r', hsp, okr', okL', hh⟩ :=
      splitInto_spec W L r (hR r (by simp)) hL hone
    unfold splitLoop
    rw [hsp]
    simp only []
    have key : ∀ x, hits dom pay x (if isEmpty r' = true then L' else L' ++ [r'])
        = addPay comb (hits dom pay x L) (dom r x) (pay r) := by
      intro x
      rw [← hh x]
      cases h : isEmpty r' with
      | false => simp
      | true =>
        have := (W.empty_iff r' okr').1 h x
        rw [hits_append, hits_cons, this]
        simp [hits_nil]
    obtain ⟨out, ho, h1, h2⟩ := ih (if isEmpty r' = true then L' else L' ++ [r'])
      (fun a ha => hR a (by simp [ha]))
      (by
        intro a ha
        cases h : isEmpty r' with
        | true => rw [h] at ha; simp only [if_true] at ha; exact okL' a ha
        | false =>
          rw [h] at ha
          simp only [Bool.false_eq_true, if_false, List.mem_append, List.mem_singleton] at ha
          rcases ha with ha | rfl
          · exact okL' a ha
          · exact ⟨okr', h⟩)
      (by intro x; rw [key x]; exact addPay_len _ _ _ (hone x))
    refine ⟨out, ho, h1, ?_⟩
    intro x
    rw [h2 x, key x, hits_cons]
    have := hone x
    cases hd : dom r x with
    | false => simp [addPay]
    | true =>
      match hq : hits dom pay x L with
      | [] => simp [addPay, foldPay]
      | [p] => simp [addPay, foldPay]
      | p :: q :: t => rw [hq] at this; simp at this

theorem splitAll_spec (W : SplitLaws isect isEmpty dom pay comb ok) (R : List α)
    (hR : ∀ a ∈ R, ok a ∧ isEmpty a = false) :
    ∃ out, splitAll isect isEmpty R = some out ∧
      (∀ a ∈ out, ok a ∧ isEmpty a = false) ∧
      (∀ x, hits dom pay x out = foldPay comb (hits dom pay x R)) := by
  cases R with
  | nil => exact ⟨[], rfl, by simp, fun x => rfl⟩
  | cons r R =>
    have h1 : ∀ x, (hits dom pay x [r]).length ≤ 1 := by
      intro x; rw [hits_cons, hits_nil]; cases dom r x <;> simp
    obtain ⟨out, ho, hk, hx⟩ := splitLoop_spec W R [r] (fun a ha => (hR a (by simp [ha])).1)
      (by intro a ha; rw [List.mem_singleton] at ha; subst ha; exact hR a (by simp)) h1
    refine ⟨out, ho, hk, ?_⟩
    intro x
    rw [hx x, ← hits_append]
    rfl

end
end Lexertl
