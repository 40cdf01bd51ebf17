import Verif.Proofs.OcamlLex
import Verif.Proofs.JsonSteps

/-
The loop of the OCaml example, on texts.
-/
namespace Lexertl.Ocaml
open Spec Spec.Ocaml Reading Props

abbrev toks : List (List Nat → Prop) := Spec.Ocaml.kinds.map (·.2)

/-! ### Which rule is taken -/

theorem takes_or (Ps : List (List Nat → Prop)) (u : List Nat) : (∃ j v w, u = v ++ w ∧ Ocaml.Takes Ps j v w) ∨ Ocaml.Nothing Ps u := by
  by_cases h : ∃ n, ∃ P ∈ Ps, ∃ v w, u = v ++ w ∧ v ≠ [] ∧ P v ∧ v.length = n
  · left
    obtain ⟨n, ⟨P, hP, v, w, h1, h0, h2, h3⟩, hm⟩ := Json.nat_max u.length (fun n ⟨P, _, v, w, h1, _, _, h3⟩ => by
      rw [h1, List.length_append]; omega) h
    obtain ⟨i, hi⟩ := List.getElem?_of_mem hP
    have hlong : ∀ P ∈ Ps, ∀ v' w', v ++ w = v' ++ w' → P v' → v'.length ≤ v.length := by
      intro P' hP' v' w' e h2'
      by_cases hv : v' = []
      · rw [hv]; exact Nat.zero_le _
      · have := hm v'.length ⟨P', hP', v', w', by rw [h1, e], hv, h2', rfl⟩
        omega
    have hmin : ∀ n i : Nat, i ≤ n → (∃ P, Ps[i]? = some P ∧ P v) → ∃ j, (∃ P, Ps[j]? = some P ∧ P v) ∧
        ∀ (i : Nat) (P : List Nat → Prop), i < j → Ps[i]? = some P → ¬ P v := by
      intro n
      induction n with
      | zero =>
        intro i hi h
        exact ⟨i, h, fun i' P' h' => by omega⟩
      | succ n ih =>
        intro i hi h
        by_cases hex : ∃ i' ≤ n, ∃ P, Ps[i']? = some P ∧ P v
        · obtain ⟨i', h', hh⟩ := hex
          exact ih i' h' hh
        · refine ⟨i, h, fun i' P' h' h'' h''' => hex ⟨i', by omega, P', h'', h'''⟩⟩
    obtain ⟨j, hj1, hj2⟩ := hmin i i (Nat.le_refl _) ⟨P, hi, h2⟩
    exact ⟨j, v, w, h1, h0, hj1, hj2, hlong⟩
  · right
    intro P hP v w h1 h0 h2
    exact h ⟨_, P, hP, v, w, h1, h0, h2, rfl⟩

/-- How tokens start. -/
theorem toks_first {P : List Nat → Prop} (hP : P ∈ toks) {v : List Nat} (h : P v) : ∃ c w, v = c :: w ∧ c ∉ [32, 9, 10] ∧ (c = 40 → w.head? = some 91) := by
  simp only [toks, Spec.Ocaml.kinds, List.map_cons, List.map_nil, List.mem_cons, List.not_mem_nil, or_false] at hP ⊢
  rcases hP with rfl | rfl | rfl | rfl | rfl | rfl | rfl | rfl | rfl
  · obtain ⟨c, w, rfl, h1, _⟩ := h
    unfold Letter at h1
    exact ⟨c, w, rfl, by omega, by omega⟩
  · obtain ⟨s, n, rfl, rfl | rfl, h⟩ := h
    · rcases h with ⟨d, w, rfl, h, _⟩ | ⟨x, d, w, rfl, _⟩
      · unfold Digit at h
        exact ⟨d, w, rfl, by omega, by omega⟩
      · exact ⟨48, _, rfl, by omega, by omega⟩
    · exact ⟨45, _, rfl, by omega, by omega⟩
  · obtain ⟨s, d, w, f, e, rfl, rfl | rfl, h, _⟩ := h
    · unfold Digit at h
      exact ⟨d, _, rfl, by omega, by omega⟩
    · exact ⟨45, _, rfl, by omega, by omega⟩
  · rcases h with ⟨c, rfl, _⟩ | ⟨e, rfl, ⟨c, rfl, h⟩ | ⟨a, b, c, rfl, h, _⟩ | ⟨a, b, rfl, _⟩⟩
    · exact ⟨39, _, rfl, by omega, by omega⟩
    · simp only [List.mem_cons, List.not_mem_nil, or_false] at h
      exact ⟨c, _, rfl, by omega, by omega⟩
    · unfold Digit at h
      exact ⟨a, _, rfl, by omega, by omega⟩
    · exact ⟨120, _, rfl, by omega, by omega⟩
  · rw [literally_eq] at h
    subst h
    exact ⟨40, _, rfl, by omega, fun _ => rfl⟩
  · obtain ⟨c, w, rfl, h, _⟩ := h
    rw [infixChars] at h
    simp only [List.mem_cons, List.not_mem_nil, or_false] at h
    exact ⟨c, w, rfl, by omega, by omega⟩
  · obtain ⟨c, w, rfl, h, _⟩ := h
    rw [prefixChars] at h
    simp only [List.mem_cons, List.not_mem_nil, or_false] at h
    exact ⟨c, w, rfl, by omega, by omega⟩
  · obtain ⟨c, rfl, h⟩ := h
    unfold OpChar at h
    rw [opChars] at h
    simp only [List.mem_cons, List.not_mem_nil, or_false] at h
    exact ⟨c, [], rfl, by omega, by omega⟩
  · obtain ⟨ds, q, rfl, _⟩ := h
    exact ⟨35, _, rfl, by omega, by omega⟩

/-- A run of characters of a kind is at most as long as the longest one. -/
theorem run_longest {P : Nat → Prop} : ∀ {v w v' w' : List Nat}, (∀ c ∈ w.head?, ¬ P c) → (∀ c ∈ v', P c) → v ++ w = v' ++ w' → v'.length ≤ v.length
  | _, _, [], _, _, _, _ => Nat.zero_le _
  | [], w, c :: v', w', h1, h2, e => by
    rw [List.nil_append] at e
    rw [e] at h1
    exact absurd (h2 c (by simp)) (h1 c rfl)
  | a :: v, w, c :: v', w', h1, h2, e => by
    simp only [List.cons_append, List.cons.injEq] at e
    have := run_longest h1 (fun d hd => h2 d (by simp [hd])) e.2
    simpa using this

theorem run_split (P : Nat → Prop) : ∀ u : List Nat, ∃ v w, u = v ++ w ∧ (∀ c ∈ v, P c) ∧ ∀ c ∈ w.head?, ¬ P c
  | [] => ⟨[], [], rfl, by simp, by simp⟩
  | c :: u => by
    by_cases h : P c
    · obtain ⟨v, w, h1, h2, h3⟩ := run_split P u
      refine ⟨c :: v, w, by rw [h1]; rfl, ?_, h3⟩
      intro d hd
      rcases List.mem_cons.1 hd with rfl | hd
      · exact h
      · exact h2 d hd
    · exact ⟨[], c :: u, rfl, by simp, by simpa using h⟩

theorem mem_texts0 {P : List Nat → Prop} (h : P ∈ texts0) : P ∈ toks ∨ P = (· = [40, 42]) ∨ P = Blanks := by
  rw [texts0, List.mem_append] at h
  simpa using h

theorem get_texts0 {j : Nat} {P : List Nat → Prop} (h : toks[j]? = some P) : texts0[j]? = some P := by
  rw [texts0, List.getElem?_append_left (List.getElem?_eq_some_iff.1 h).1]
  exact h

theorem get_toks {j : Nat} {P : List Nat → Prop} (hj : j < 9) (h : texts0[j]? = some P) : P ∈ toks := by
  rw [texts0, List.getElem?_append_left (by exact hj)] at h
  exact List.mem_of_getElem? h

theorem takes_token {j : Nat} {v w : List Nat} (h : Ocaml.Takes toks j v w) : Ocaml.Takes texts0 j v w := by
  obtain ⟨P, hP, hPv⟩ := h.hit
  obtain ⟨c, x, rfl, hc, h40⟩ := toks_first (List.mem_of_getElem? hP) hPv
  have hj : j < toks.length := (List.getElem?_eq_some_iff.1 hP).1
  refine ⟨h.nonempty, ⟨P, get_texts0 hP, hPv⟩, ?_, ?_⟩
  · intro i Q hi hQ
    rw [texts0, List.getElem?_append_left (Nat.lt_trans hi hj)] at hQ
    exact h.earliest i Q hi hQ
  · intro Q hQ v' w' e hv'
    rcases mem_texts0 hQ with hQ | rfl | rfl
    · exact h.longest Q hQ v' w' e hv'
    · subst hv'
      simp only [List.cons_append, List.cons.injEq, List.nil_append] at e
      have := h40 e.1
      cases x with
      | nil => cases this
      | cons d x =>
        simp at this e
        omega
    · cases v' with
      | nil => exact Nat.zero_le _
      | cons d x' =>
        simp only [List.cons_append, List.cons.injEq] at e
        exact absurd (hv'.2 d (by simp)) (by rw [← e.1]; exact hc)

theorem nothing_texts0 {c : Nat} {w : List Nat} (hc : c ∉ [32, 9, 10]) (h40 : ¬ (c = 40 ∧ w.head? = some 42)) (h : Ocaml.Nothing toks (c :: w)) :
    Ocaml.Nothing texts0 (c :: w) := by
  intro Q hQ v w' e hv hQv
  rcases mem_texts0 hQ with hQ | rfl | rfl
  · exact h Q hQ v w' e hv hQv
  · subst hQv
    simp only [List.cons_append, List.cons.injEq, List.nil_append] at e
    rw [e.2] at h40
    exact h40 ⟨e.1, rfl⟩
  · cases v with
    | nil => exact hv rfl
    | cons d x =>
      simp only [List.cons_append, List.cons.injEq] at e
      exact absurd (hQv.2 d (by simp)) (by rw [← e.1]; exact hc)

theorem takes_open (w : List Nat) : Ocaml.Takes texts0 9 [40, 42] w := by
  have no : ∀ P ∈ toks, ∀ v' w', [40, 42] ++ w = v' ++ w' → ¬ P v' := by
    intro P hP v' w' e h
    obtain ⟨c, x, rfl, hc, h40⟩ := toks_first hP h
    simp only [List.cons_append, List.cons.injEq, List.nil_append] at e
    have := h40 e.1.symm
    cases x with
    | nil => cases this
    | cons d x =>
      simp at this e
      omega
  refine ⟨by simp, ⟨_, rfl, rfl⟩, ?_, ?_⟩
  · intro i P hi hP
    exact no P (get_toks hi hP) [40, 42] w rfl
  · intro P hP v' w' e h
    rcases mem_texts0 hP with hP | rfl | rfl
    · exact absurd h (no P hP v' w' e)
    · rw [h]; exact Nat.le_refl _
    · cases v' with
      | nil => exact Nat.zero_le _
      | cons d x =>
        simp only [List.cons_append, List.cons.injEq] at e
        have := h.2 d (by simp)
        rw [← e.1] at this
        exact absurd this (by decide)

theorem takes_blanks {v w : List Nat} (h : Blanks v) (hw : ∀ c ∈ w.head?, ¬ c ∈ [32, 9, 10]) : Ocaml.Takes texts0 10 v w := by
  obtain ⟨c, x, rfl⟩ := List.exists_cons_of_ne_nil h.1
  have hc := h.2 c (by simp)
  have no : ∀ P ∈ toks, ∀ v' w', c :: x ++ w = v' ++ w' → ¬ P v' := by
    intro P hP v' w' e h
    obtain ⟨d, x, rfl, hd, h40⟩ := toks_first hP h
    simp only [List.cons_append, List.cons.injEq] at e
    rw [← e.1] at hd
    exact hd hc
  refine ⟨by simp, ⟨_, rfl, h⟩, ?_, ?_⟩
  · intro i P hi hP
    by_cases hi' : i < 9
    · exact no P (get_toks hi' hP) _ w rfl
    · have : i = 9 := by omega
      subst this
      cases hP
      intro e
      have : c = 40 := by injection e
      subst this
      exact absurd hc (by decide)
  · intro P hP v' w' e h
    rcases mem_texts0 hP with hP | rfl | rfl
    · exact absurd h (no P hP v' w' e)
    · rw [h] at e
      simp only [List.cons_append, List.cons.injEq] at e
      rw [e.1] at hc
      exact absurd hc (by decide)
    · exact run_longest hw h.2 e

theorem takes1_open (w : List Nat) : Ocaml.Takes texts1 0 [40, 42] w := by
  refine ⟨by simp, ⟨_, rfl, rfl⟩, fun i P hi => by omega, ?_⟩
  intro P hP v' w' e h
  simp only [texts1, List.mem_cons, List.not_mem_nil, or_false] at hP
  rcases hP with rfl | rfl | rfl
  · rw [h]; exact Nat.le_refl _
  · rw [h]; exact Nat.le_refl _
  · rcases h with (⟨h1, h2⟩ | rfl) | rfl
    · cases v' with
      | nil => exact Nat.zero_le _
      | cons d x =>
        simp only [List.cons_append, List.cons.injEq] at e
        exact absurd e.1.symm (h2 d (by simp)).1
    · decide
    · decide

theorem takes1_close (w : List Nat) : Ocaml.Takes texts1 1 [42, 41] w := by
  refine ⟨by simp, ⟨_, rfl, rfl⟩, ?_, ?_⟩
  · intro i P hi hP
    have : i = 0 := by omega
    subst this
    cases hP
    intro e
    cases e
  intro P hP v' w' e h
  simp only [texts1, List.mem_cons, List.not_mem_nil, or_false] at hP
  rcases hP with rfl | rfl | rfl
  · rw [h]; exact Nat.le_refl _
  · rw [h]; exact Nat.le_refl _
  · rcases h with (⟨h1, h2⟩ | rfl) | rfl
    · cases v' with
      | nil => exact Nat.zero_le _
      | cons d x =>
        simp only [List.cons_append, List.cons.injEq] at e
        exact absurd e.1.symm (h2 d (by simp)).2.1
    · decide
    · decide

def Plain (c : Nat) : Prop := c ≠ 40 ∧ c ≠ 42 ∧ c ≤ 255

theorem takes1_run {v w : List Nat} (hv : v ≠ []) (h : ∀ c ∈ v, Plain c) (hw : ∀ c ∈ w.head?, ¬ Plain c) : Ocaml.Takes texts1 2 v w := by
  obtain ⟨c, x, rfl⟩ := List.exists_cons_of_ne_nil hv
  have hc := h c (by simp)
  refine ⟨by simp, ⟨_, rfl, .inl (.inl ⟨hv, h⟩)⟩, ?_, ?_⟩
  · intro i P hi hP
    have : i = 0 ∨ i = 1 := by omega
    rcases this with rfl | rfl
    · cases hP
      intro e
      injection e with e
      exact hc.1 e
    · cases hP
      intro e
      injection e with e
      exact hc.2.1 e
  · intro P hP v' w' e h'
    simp only [texts1, List.mem_cons, List.not_mem_nil, or_false] at hP
    rcases hP with rfl | rfl | rfl
    · rw [h'] at e
      simp only [List.cons_append, List.cons.injEq] at e
      exact absurd e.1 hc.1
    · rw [h'] at e
      simp only [List.cons_append, List.cons.injEq] at e
      exact absurd e.1 hc.2.1
    · rcases h' with (⟨h1, h2⟩ | rfl) | rfl
      · exact run_longest hw h2 e
      · simp
      · simp

theorem takes1_single {c : Nat} {w : List Nat} (hc : c = 40 ∨ c = 42) (h1 : ¬ (c = 40 ∧ w.head? = some 42)) (h2 : ¬ (c = 42 ∧ w.head? = some 41)) :
    Ocaml.Takes texts1 2 [c] w := by
  refine ⟨by simp, ⟨_, rfl, ?_⟩, ?_, ?_⟩
  · rcases hc with rfl | rfl
    · exact .inl (.inr rfl)
    · exact .inr rfl
  · intro i P hi hP
    have : i = 0 ∨ i = 1 := by omega
    rcases this with rfl | rfl
    · cases hP
      intro e
      cases e
    · cases hP
      intro e
      cases e
  · intro P hP v' w' e h'
    simp only [texts1, List.mem_cons, List.not_mem_nil, or_false] at hP
    rcases hP with rfl | rfl | rfl
    · rw [h'] at e
      simp only [List.cons_append, List.cons.injEq, List.nil_append] at e
      rw [e.2] at h1
      exact absurd ⟨e.1, rfl⟩ h1
    · rw [h'] at e
      simp only [List.cons_append, List.cons.injEq, List.nil_append] at e
      rw [e.2] at h2
      exact absurd ⟨e.1, rfl⟩ h2
    · rcases h' with (⟨h1, h2⟩ | rfl) | rfl
      · cases v' with
        | nil => exact Nat.zero_le _
        | cons d x =>
          simp only [List.cons_append, List.cons.injEq] at e
          have := h2 d (by simp)
          omega
      · exact Nat.le_refl _
      · exact Nat.le_refl _

/-! ### One step -/

abbrev lexEnv (inp : List Nat) : LexEnv := ⟨xss, 65535, 0, Calc.flags, inp⟩

theorem get_same {xs : List SRule} {Ps : List (List Nat → Prop)} (hl : xs.length = Ps.length) {i : Nat} {x : Option Re} (hx : (xs.map (·.2))[i]? = some x) :
    ∃ y P, xs[i]? = some y ∧ Ps[i]? = some P ∧ x = y.2 := by
  simp only [List.getElem?_map, Option.map_eq_some_iff] at hx
  obtain ⟨y, h1, rfl⟩ := hx
  have := (List.getElem?_eq_some_iff.1 h1).1
  exact ⟨y, Ps[i]'(by omega), h1, List.getElem?_eq_getElem _, rfl⟩

theorem chosen {inp : List Nat} {r : Results} {p : Nat} {v w : List Nat} (hd : inp.drop p = v ++ w) (he : r.eoi = inp.length) {xs : List SRule}
    {Ps : List (List Nat → Prop)} (hM : Match xs Ps) (hl : xs.length = Ps.length) (hxs : xss[r.state]? = some xs) {j : Nat} {x : SRule}
    (hx : xs[j]? = some x) (h : Ocaml.Takes Ps j v w) : p < r.eoi ∧ ∃ b, (lexEnv inp).Chosen r p x (p + v.length) x.1.nextDfa b := by
  have hpos : 0 < v.length := List.length_pos_iff.2 h.nonempty
  have hlen : p + (v.length + w.length) = inp.length := by
    have := congrArg List.length hd
    simp only [List.length_drop, List.length_append] at this
    omega
  refine ⟨by omega, _, .text xs x _ j hxs hx ⟨by omega, by omega, ?_, ?_, ?_⟩⟩
  · obtain ⟨P, hP, hPv⟩ := h.hit
    refine ⟨x.2, by rw [List.getElem?_map, hx]; rfl, ?_⟩
    rw [Json.text_take, hd, List.take_left]
    exact (hM j x P hx hP _ _).2 hPv
  · intro i e hi hei
    obtain ⟨y, P, h1, h2, rfl⟩ := get_same hl hei
    rw [Json.text_take, hd, List.take_left]
    exact fun hm => h.earliest i P hi h2 ((hM i y P h1 h2 _ _).1 hm)
  · intro k' h1 h2 e hei
    obtain ⟨i, hi⟩ := List.getElem?_of_mem hei
    obtain ⟨y, P, h3, h4, rfl⟩ := get_same hl hi
    obtain ⟨m, rfl⟩ : ∃ m, k' = p + m := ⟨k' - p, by omega⟩
    rw [Json.text_take, hd]
    intro hm
    have := h.longest P (List.mem_of_getElem? h4) _ _ (List.take_append_drop m (v ++ w)).symm ((hM i y P h3 h4 _ _).1 hm)
    rw [List.length_take, List.length_append] at this
    omega

theorem drp {inp : List Nat} (p : Nat) (v w : List Nat) (hd : inp.drop p = v ++ w) (hp : p ≤ inp.length) : inp.drop (p + v.length) = w ∧ p + v.length ≤ inp.length := by
  have := congrArg List.length hd
  simp only [List.length_drop, List.length_append] at this
  exact ⟨by rw [← List.drop_drop, hd, List.drop_left], by omega⟩

/-! ### Comments -/

/-- The stack inside `n + 1` comments. -/
def stk : Nat → List (Nat × Nat)
  | 0 => [(0, 0)]
  | n + 1 => (1, 0) :: stk n

/-- No start of the text closes the comments. -/
def Unclosed (n : Nat) (u : List Nat) : Prop := ∀ v w, u = v ++ w → ¬ Inner n v

theorem inner_open {n : Nat} {v : List Nat} (h : Inner n (40 :: 42 :: v)) : Inner (n + 1) v := by
  cases h with
  | opn _ _ h => exact h
  | other _ _ _ h1 => exact absurd ⟨rfl, rfl⟩ h1

theorem inner_close {n : Nat} {v : List Nat} (h : Inner n (42 :: 41 :: v)) : (n = 1 ∧ v = []) ∨ ∃ m, n = m + 2 ∧ Inner (m + 1) v := by
  cases h with
  | done => exact .inl ⟨rfl, rfl⟩
  | cls m _ h => exact .inr ⟨m, rfl, h⟩
  | other _ _ _ _ h1 => exact absurd ⟨rfl, rfl⟩ h1

theorem inner_other {n c : Nat} {v : List Nat} (h1 : ¬ (c = 40 ∧ v.head? = some 42)) (h2 : ¬ (c = 42 ∧ v.head? = some 41)) (h : Inner n (c :: v)) : Inner n v := by
  cases h with
  | done => exact absurd ⟨rfl, rfl⟩ h2
  | opn => exact absurd ⟨rfl, rfl⟩ h1
  | cls => exact absurd ⟨rfl, rfl⟩ h2
  | other _ _ _ _ _ h => exact h

theorem inner_ne {n : Nat} {v : List Nat} (h : Inner n v) : 2 ≤ v.length := by
  induction h with
  | done => decide
  | opn n v _ ih => simp
  | cls n v _ ih => simp
  | other n c v _ _ _ ih => simp only [List.length_cons]; omega

theorem inner_run {n : Nat} {w : List Nat} : ∀ {v : List Nat}, (∀ c ∈ v, Plain c) → Inner n w → Inner n (v ++ w)
  | [], _, h => h
  | c :: v, hv, h => by
    have hc := hv c (by simp)
    exact .other n c _ (fun e => hc.1 e.1) (fun e => hc.2.1 e.1) (inner_run (fun d hd => hv d (by simp [hd])) h)

theorem unclosed_run {n : Nat} {w : List Nat} : ∀ {v : List Nat}, (∀ c ∈ v, Plain c) → Unclosed n w → Unclosed n (v ++ w)
  | [], _, h => h
  | c :: v, hv, h => by
    have hc := hv c (by simp)
    intro x y e hi
    cases x with
    | nil => exact absurd (inner_ne hi) (by decide)
    | cons d x =>
      simp only [List.cons_append, List.cons.injEq] at e
      rw [← e.1] at hi
      exact unclosed_run (fun d hd => hv d (by simp [hd])) h x y e.2 (inner_other (fun e => hc.1 e.1) (fun e => hc.2.1 e.1) hi)

theorem unclosed_other {n c : Nat} {w : List Nat} (h1 : ¬ (c = 40 ∧ w.head? = some 42)) (h2 : ¬ (c = 42 ∧ w.head? = some 41)) (h : Unclosed n w) :
    Unclosed n (c :: w) := by
  intro x y e hi
  cases x with
  | nil => exact absurd (inner_ne hi) (by decide)
  | cons d x =>
    simp only [List.cons_append, List.cons.injEq] at e
    obtain ⟨rfl, rfl⟩ := e
    have hne : x ≠ [] := by
      rintro rfl
      exact absurd (inner_ne hi) (by simp)
    obtain ⟨a, x, rfl⟩ := List.exists_cons_of_ne_nil hne
    exact h _ y rfl (inner_other h1 h2 hi)

theorem unclosed_open {n : Nat} {w : List Nat} (h : Unclosed (n + 1) w) : Unclosed n (40 :: 42 :: w) := by
  intro x y e hi
  match x, e with
  | [], _ => exact absurd (inner_ne hi) (by decide)
  | [_], _ => exact absurd (inner_ne hi) (by simp)
  | a :: b :: x, e =>
    simp only [List.cons_append, List.cons.injEq] at e
    obtain ⟨rfl, rfl, rfl⟩ := e
    exact h x y rfl (inner_open hi)

theorem unclosed_close {n : Nat} {w : List Nat} (h : Unclosed (n + 1) w) : Unclosed (n + 2) (42 :: 41 :: w) := by
  intro x y e hi
  match x, e with
  | [], _ => exact absurd (inner_ne hi) (by decide)
  | [_], _ => exact absurd (inner_ne hi) (by simp)
  | a :: b :: x, e =>
    simp only [List.cons_append, List.cons.injEq] at e
    obtain ⟨rfl, rfl, rfl⟩ := e
    rcases inner_close hi with ⟨h1, _⟩ | ⟨m, h1, h2⟩
    · omega
    · rw [show m = n from by omega] at h2
      exact h x y rfl h2

/-- How a call ends that is inside comments. -/
def Ends (inp : List Nat) (r : Results) (p n : Nat) (u : List Nat) : Prop :=
  ∃ r', (lexEnv inp).Lex r p (.ok r') ∧ r'.first = r.first ∧ r'.eoi = r.eoi ∧
    ((∃ v w, u = v ++ w ∧ Inner (n + 1) v ∧ r'.id = 12 ∧ r'.second = p + v.length ∧ r'.state = 0 ∧ r'.stack = []) ∨
     (Unclosed (n + 1) u ∧ r'.id = 0 ∧ r'.second = inp.length))

theorem comment_lex {inp : List Nat} (hinp : ∀ c ∈ inp, c < 256) : ∀ (m n : Nat) (u : List Nat) (r : Results) (p : Nat), u.length ≤ m → inp.drop p = u →
    p ≤ inp.length → r.eoi = inp.length → r.state = 1 → r.stack = stk n → r.second = p → Ends inp r p n u
  | m, n, [], r, p, _, hd, hp, he, hs, hk, h2 => by
    have : p = r.eoi := by
      have := congrArg List.length hd
      simp only [List.length_drop, List.length_nil] at this
      omega
    refine ⟨{ r with id := 0, userId := 65535 }, by rw [this]; exact .eoi r, rfl, rfl, .inr ⟨?_, rfl, by rw [← he, ← this]; exact h2⟩⟩
    intro v w e hi
    have := inner_ne hi
    have := congrArg List.length e
    simp only [List.length_append, List.length_nil] at this
    omega
  | 0, _, _ :: _, _, _, h, _, _, _, _, _, _ => by simp at h
  | m + 1, n, c :: u, r, p, hm, hd, hp, he, hs, hk, h2 => by
    have row : xss[r.state]? = some row1 := by rw [hs]; rfl
    simp only [List.length_cons] at hm
    -- a rule without id that neither pushes nor pops
    have body : ∀ v w, v ≠ [] → c :: u = v ++ w → Ocaml.Takes texts1 2 v w → (∀ x, Inner (n + 1) x → w.take x.length = x → Inner (n + 1) (v ++ x)) →
        (Unclosed (n + 1) w → Unclosed (n + 1) (v ++ w)) → Ends inp r p n (c :: u) := by
      intro v w hv e hT hi hu
      rw [e] at hd ⊢
      obtain ⟨h1, b, hc⟩ := chosen hd he match1 rfl row (x := ruleOf bodyRe 0 65535 1 65535 false) rfl hT
      obtain ⟨d1, d2⟩ := drp p v w hd hp
      have hpos : 0 < v.length := List.length_pos_iff.2 hv
      have hl := congrArg List.length e
      simp only [List.length_cons, List.length_append] at hl
      obtain ⟨r', hL, a1, a2, a3⟩ := comment_lex hinp m n w { r with second := p + v.length, bol := b, state := 1 } (p + v.length) (by omega) d1 d2 he rfl hk rfl
      refine ⟨r', .again r { r with second := p + v.length, bol := b, state := 1 } p _ _ _ b _ h1 hc ?_ (show (0 : Nat) ≠ 65534 by decide) (.inl rfl) hL, a1, a2, ?_⟩
      · simp [LexEnv.accept, ruleOf, Calc.flags]
      · rcases a3 with ⟨x, y, rfl, g1, g2, g3, g4, g5⟩ | ⟨g1, g2, g3⟩
        · refine .inl ⟨v ++ x, y, by rw [List.append_assoc], hi x g1 (by simp), g2, ?_, g4, g5⟩
          rw [g3, List.length_append]
          omega
        · exact .inr ⟨hu g1, g2, g3⟩
    by_cases ho : c = 40 ∧ u.head? = some 42
    · obtain ⟨rfl, ho⟩ := ho
      cases u with
      | nil => cases ho
      | cons d w =>
        cases ho
        obtain ⟨h1, b, hc⟩ := chosen (v := [40, 42]) (w := w) hd he match1 rfl row (x := ruleOf openRe 0 65535 1 1 false) rfl (takes1_open w)
        obtain ⟨d1, d2⟩ := drp p [40, 42] w hd hp
        obtain ⟨r', hL, a1, a2, a3⟩ := comment_lex hinp m (n + 1) w { r with second := p + 2, bol := b, state := 1, stack := (1, 0) :: r.stack } (p + 2)
          (by simp only [List.length_cons] at hm; omega) d1 d2 he rfl (by rw [show Results.stack _ = (1, 0) :: r.stack from rfl, hk]; rfl) rfl
        refine ⟨r', .again r { r with second := p + 2, bol := b, state := 1, stack := (1, 0) :: r.stack } p _ _ _ b _ h1 hc ?_ (show (0 : Nat) ≠ 65534 by decide) (.inl rfl) hL, a1, a2, ?_⟩
        · simp [LexEnv.accept, ruleOf, Calc.flags]
        · rcases a3 with ⟨x, y, rfl, g1, g2, g3, g4, g5⟩ | ⟨g1, g2, g3⟩
          · refine .inl ⟨40 :: 42 :: x, y, rfl, .opn _ _ g1, g2, ?_, g4, g5⟩
            rw [g3]
            simp only [List.length_cons]
            omega
          · exact .inr ⟨unclosed_open g1, g2, g3⟩
    · by_cases hcl : c = 42 ∧ u.head? = some 41
      · obtain ⟨rfl, hcl⟩ := hcl
        cases u with
        | nil => cases hcl
        | cons d w =>
          cases hcl
          obtain ⟨h1, b, hc⟩ := chosen (v := [42, 41]) (w := w) hd he match1 rfl row (x := ruleOf closeRe 12 65535 65535 65535 true) rfl (takes1_close w)
          obtain ⟨d1, d2⟩ := drp p [42, 41] w hd hp
          cases n with
          | zero =>
            have ha : (lexEnv inp).accept (ruleOf closeRe 12 65535 65535 65535 true).1 r (p + 2) 65535 b = .ok { r with second := p + 2, stack := [], bol := b, state := 0 } := by
              unfold LexEnv.accept
              rw [if_pos ⟨rfl, rfl⟩, hk]
              rfl
            refine ⟨_, .token r _ p _ _ _ b h1 hc ha (show (12 : Nat) ≠ 65534 by decide) ?_, rfl, rfl, .inl ⟨[42, 41], w, rfl, .done, rfl, rfl, rfl, rfl⟩⟩
            rintro (g | ⟨_, _, y, s, g1, g2⟩)
            · exact absurd g (show (12 : Nat) ≠ 0 by decide)
            · cases g1
          | succ n =>
            have ha : (lexEnv inp).accept (ruleOf closeRe 12 65535 65535 65535 true).1 r (p + 2) 65535 b = .ok { r with second := p + 2, stack := stk n, bol := b, state := 1 } := by
              unfold LexEnv.accept
              rw [if_pos ⟨rfl, rfl⟩, hk]
              rfl
            have hst : ∃ e s, stk n = e :: s ∧ e.2 = 0 := by
              cases n with
              | zero => exact ⟨_, _, rfl, rfl⟩
              | succ n => exact ⟨_, _, rfl, rfl⟩
            obtain ⟨r', hL, a1, a2, a3⟩ := comment_lex hinp m n w { r with second := p + 2, stack := stk n, bol := b, state := 1 } (p + 2)
              (by simp only [List.length_cons] at hm; omega) d1 d2 he rfl rfl rfl
            refine ⟨r', .again r _ p _ _ _ b _ h1 hc ha (show (12 : Nat) ≠ 65534 by decide) (.inr ⟨rfl, rfl, hst⟩) hL, a1, a2, ?_⟩
            rcases a3 with ⟨x, y, rfl, g1, g2, g3, g4, g5⟩ | ⟨g1, g2, g3⟩
            · refine .inl ⟨42 :: 41 :: x, y, rfl, .cls _ _ g1, g2, ?_, g4, g5⟩
              rw [g3]
              simp only [List.length_cons]
              omega
            · exact .inr ⟨unclosed_close g1, g2, g3⟩
      · by_cases hpl : Plain c
        · obtain ⟨v, w, e, hv, hw⟩ := run_split Plain (c :: u)
          have hne : v ≠ [] := by
            rintro rfl
            rw [List.nil_append] at e
            rw [← e] at hw
            exact hw c rfl hpl
          exact body v w hne e (takes1_run hne hv hw) (fun x hx _ => inner_run hv hx) (unclosed_run hv)
        · have hb : c < 256 := hinp c (by
            have : c ∈ inp.drop p := by rw [hd]; simp
            exact List.mem_of_mem_drop this)
          have hc : c = 40 ∨ c = 42 := by unfold Plain at hpl; omega
          refine body [c] u (by simp) rfl (takes1_single hc ho hcl) (fun x hx hxu => ?_) (unclosed_other ho hcl)
          obtain ⟨a, x, rfl⟩ := List.exists_cons_of_ne_nil (show x ≠ [] by rintro rfl; exact absurd (inner_ne hx) (by decide))
          have hh : u.head? = some a := by
            cases u with
            | nil => simp at hxu
            | cons a' u => simp at hxu; rw [hxu.1]; rfl
          rw [hh] at ho hcl
          exact .other _ _ _ ho hcl hx

/-! ### The loop -/

theorem line_eq {inp : List Nat} {r : Results} {p : Nat} {v w : List Nat} (hd : inp.drop p = v ++ w) (h1 : r.first = p) (h2 : r.second = p + v.length)
    {n : List Nat} (h3 : (r.id = 65535 ∧ n = chars "Unknown token") ∨ (r.id ≠ 65535 ∧ names[r.id]? = some n)) : line 65535 inp r = .ok (n, v) := by
  unfold line
  rw [h1, h2, if_pos (by omega), Nat.add_sub_cancel_left, hd, List.take_left]
  rcases h3 with ⟨h3, rfl⟩ | ⟨h3, h4⟩
  · rw [if_neg (by rw [h3]; simp)]
  · rw [if_pos h3, h4]

/-- What a call does, and then the program. -/
def Goes (sm : Internals) (inp : List Nat) (r : Results) (p : Nat) (ls : List Line) : Prop :=
  ∃ r' l, (lexEnv inp).Lex r p (.ok r') ∧ line 65535 inp r' = .ok l ∧ ((r'.id = 0 ∧ ls = [l]) ∨
    (r'.id ≠ 0 ∧ ∃ ls', ls = l :: ls' ∧ Run 65535 1 sm inp r' (.ok ls')))

theorem run_goes {sm : Internals} {inp : List Nat} {r : Results}
    (hL : ∀ out : M Results, Returns Calc.flags 65535 1 sm inp r out ↔ (lexEnv inp).Lex { r with first := r.second } r.second out)
    {ls : List Line} (h : Goes sm inp { r with first := r.second } r.second ls) : Run 65535 1 sm inp r (.ok ls) := by
  obtain ⟨r', l, h1, h2, ⟨h3, rfl⟩ | ⟨h3, ls', rfl, h4⟩⟩ := h
  · exact .last r r' l ((hL _).2 h1) h2 h3
  · exact .more r r' l (.ok ls') ((hL _).2 h1) h2 h3 h4

theorem prints_run {w : List Nat} {ls : List Line} (h : Prints w ls) : ∀ {v : List Nat}, (∀ c ∈ v, c ∈ [32, 9, 10]) → Prints (v ++ w) ls
  | [], _ => h
  | c :: v, hv => .blank c _ ls (hv c (by simp)) (prints_run h fun d hd => hv d (by simp [hd]))

/-- The rules of the tokens. -/
theorem token_rule {j : Nat} (hj : j < 9) : ∃ x n k, row0[j]? = some x ∧ Spec.Ocaml.kinds[j]? = some k ∧ k.1 = n ∧ x.1.id ≠ 0 ∧ x.1.id ≠ 65534 ∧
    x.1.id ≠ 65535 ∧ names[x.1.id]? = some n ∧ x.1.popDfa = false ∧ x.1.pushDfa = 65535 ∧ x.1.nextDfa = 0 := by
  have : j = 0 ∨ j = 1 ∨ j = 2 ∨ j = 3 ∨ j = 4 ∨ j = 5 ∨ j = 6 ∨ j = 7 ∨ j = 8 := by omega
  rcases this with rfl | rfl | rfl | rfl | rfl | rfl | rfl | rfl | rfl <;>
    exact ⟨_, _, _, rfl, rfl, rfl, by simp [ruleOf], by simp [ruleOf], by simp [ruleOf], rfl, rfl, rfl, rfl⟩

theorem goes {sm : Internals} {inp : List Nat} (hinp : ∀ c ∈ inp, c < 256)
    (hL : ∀ r : Results, r.state < 2 → (∀ e ∈ r.stack, e.1 < 2) → r.second ≤ r.eoi → r.eoi ≤ inp.length → ∀ out : M Results,
      Returns Calc.flags 65535 1 sm inp r out ↔ (lexEnv inp).Lex { r with first := r.second } r.second out) :
    ∀ (m : Nat) (u : List Nat) (r : Results) (p : Nat), u.length ≤ m → inp.drop p = u → p ≤ inp.length → r.eoi = inp.length → r.state = 0 →
      r.stack = [] → r.first = p → r.second = p → ∃ ls, Prints u ls ∧ Goes sm inp r p ls
  | m, [], r, p, _, hd, hp, he, hs, hk, h1, h2 => by
    have : p = r.eoi := by
      have := congrArg List.length hd
      simp only [List.length_drop, List.length_nil] at this
      omega
    refine ⟨_, .eof, { r with id := 0, userId := 65535 }, _, by rw [this]; exact .eoi r, ?_, .inl ⟨rfl, rfl⟩⟩
    exact line_eq (r := { r with id := 0, userId := 65535 }) (p := p) (v := []) (w := []) hd h1 h2 (.inr ⟨show (0 : Nat) ≠ 65535 by decide, rfl⟩)
  | 0, _ :: _, _, _, h, _, _, _, _, _, _, _ => by simp at h
  | m + 1, c :: u, r, p, hm, hd, hp, he, hs, hk, h1, h2 => by
    have row : xss[r.state]? = some row0 := by rw [hs]; rfl
    simp only [List.length_cons] at hm
    -- going on after a token
    have next : ∀ (r' : Results) (w : List Nat), w.length ≤ m → inp.drop r'.second = w → r'.second ≤ inp.length → r'.eoi = inp.length → r'.state = 0 →
        r'.stack = [] → ∃ ls, Prints w ls ∧ Run 65535 1 sm inp r' (.ok ls) := by
      intro r' w g1 g2 g3 g4 g5 g6
      obtain ⟨ls, a1, a2⟩ := goes hinp hL m w { r' with first := r'.second } r'.second g1 g2 g3 g4 g5 g6 rfl rfl
      exact ⟨ls, a1, run_goes (hL r' (by rw [g5]; decide) (by rw [g6]; simp) (by omega) (by omega)) a2⟩
    by_cases hb : c ∈ [32, 9, 10]
    · obtain ⟨v, w, e, hv, hw⟩ := run_split (· ∈ [32, 9, 10]) (c :: u)
      have hne : v ≠ [] := by
        rintro rfl
        rw [List.nil_append] at e
        rw [← e] at hw
        exact hw c rfl hb
      have hl := congrArg List.length e
      have hpos : 0 < v.length := List.length_pos_iff.2 hne
      simp only [List.length_cons, List.length_append] at hl
      rw [e] at hd ⊢
      obtain ⟨hlt, b, hc⟩ := chosen hd he match0 rfl row (x := ruleOf wsRe 65534 65535 0 65535 false) rfl (takes_blanks ⟨hne, hv⟩ hw)
      obtain ⟨d1, d2⟩ := drp p v w hd hp
      obtain ⟨ls, a1, r', l, a2, a3⟩ := goes hinp hL m w { r with first := p + v.length, second := p + v.length, bol := b, state := 0 } (p + v.length)
        (by omega) d1 d2 he rfl hk rfl rfl
      refine ⟨ls, prints_run a1 hv, r', l, .skip r { r with second := p + v.length, bol := b, state := 0 } p _ _ _ b _ hlt hc ?_ rfl a2, a3⟩
      simp [LexEnv.accept, ruleOf, Calc.flags]
    · by_cases ho : c = 40 ∧ u.head? = some 42
      · obtain ⟨rfl, ho⟩ := ho
        cases u with
        | nil => cases ho
        | cons d w =>
          cases ho
          simp only [List.length_cons] at hm
          obtain ⟨hlt, b, hc⟩ := chosen (v := [40, 42]) (w := w) hd he match0 rfl row (x := ruleOf openRe 0 65535 1 0 false) rfl (takes_open w)
          obtain ⟨d1, d2⟩ := drp p [40, 42] w hd hp
          obtain ⟨r', hL', a1, a2, a3⟩ := comment_lex hinp m 0 w { r with second := p + 2, bol := b, state := 1, stack := (0, 0) :: r.stack } (p + 2)
            (by omega) d1 d2 he rfl (by rw [show Results.stack _ = (0, 0) :: r.stack from rfl, hk]; rfl) rfl
          have hlex : (lexEnv inp).Lex r p (.ok r') := by
            refine .again r { r with second := p + 2, bol := b, state := 1, stack := (0, 0) :: r.stack } p _ _ _ b _ hlt hc ?_ (show (0 : Nat) ≠ 65534 by decide) (.inl rfl) hL'
            simp [LexEnv.accept, ruleOf, Calc.flags]
          have a1 : r'.first = p := a1.trans h1
          have a2 : r'.eoi = inp.length := a2.trans he
          rcases a3 with ⟨x, y, rfl, g1, g2, g3, g4, g5⟩ | ⟨g1, g2, g3⟩
          · obtain ⟨d3, d4⟩ := drp (p + 2) x y d1 d2
            obtain ⟨ls, b1, b2⟩ := next r' y (by rw [List.length_append] at hm; omega) (by rw [g3]; exact d3) (by rw [g3]; exact d4) a2 g4 g5
            refine ⟨_, .comment x y ls g1 b1, r', _, hlex, line_eq (p := p) (v := 40 :: 42 :: x) (w := y) hd a1 ?_ (.inr ⟨by rw [g2]; decide, by rw [g2]; rfl⟩),
              .inr ⟨by rw [g2]; decide, ls, rfl, b2⟩⟩
            rw [g3]
            simp only [List.length_cons]
            omega
          · refine ⟨_, .unclosed w g1, r', _, hlex, line_eq (p := p) (v := 40 :: 42 :: w) (w := []) (by rw [hd, List.append_nil]) a1 ?_ (.inr ⟨by rw [g2]; decide, by rw [g2]; rfl⟩),
              .inl ⟨g2, rfl⟩⟩
            have := congrArg List.length hd
            simp only [List.length_drop, List.length_cons] at this ⊢
            omega
      · rcases takes_or toks (c :: u) with ⟨j, v, w, e, hT⟩ | hN
        · have hj : j < 9 := by
            obtain ⟨P, hP, _⟩ := hT.hit
            exact (List.getElem?_eq_some_iff.1 hP).1
          obtain ⟨x, n, k, f1, f2, rfl, f3, f4, f5, f6, f7, f8, f9⟩ := token_rule hj
          have hl := congrArg List.length e
          have hpos : 0 < v.length := List.length_pos_iff.2 hT.nonempty
          simp only [List.length_cons, List.length_append] at hl
          rw [e] at hd ⊢
          obtain ⟨hlt, b, hc⟩ := chosen hd he match0 rfl row f1 (takes_token hT)
          obtain ⟨d1, d2⟩ := drp p v w hd hp
          have ha : (lexEnv inp).accept x.1 r (p + v.length) x.1.nextDfa b = .ok { r with second := p + v.length, bol := b, state := 0 } := by
            unfold LexEnv.accept
            rw [if_neg (by rw [f7]; simp), f8, f9]
            simp [Calc.flags]
          obtain ⟨ls, b1, b2⟩ := next { r with second := p + v.length, bol := b, state := 0, id := x.1.id, userId := x.1.userId } w (by omega) d1 d2 he rfl hk
          refine ⟨_, .token j k v w ls hT f2 b1, _, _, .token r _ p x _ _ b hlt hc ha f4 ?_, line_eq (r := { r with second := p + v.length, bol := b, state := 0, id := x.1.id, userId := x.1.userId }) (p := p) hd h1 rfl (.inr ⟨f5, f6⟩), .inr ⟨f3, ls, rfl, b2⟩⟩
          rintro (g | ⟨_, g, _⟩)
          · exact f3 g
          · rw [f7] at g
            cases g
        · have hN0 := nothing_texts0 hb ho hN
          have hc : inp[p]? = some c := by
            have := congrArg List.head? hd
            rw [List.head?_drop] at this
            exact this
          have hlt := Calc.drop_lt hd
          obtain ⟨d1, d2⟩ := drp p [c] u hd hp
          obtain ⟨ls, b1, b2⟩ := next { r with first := p, second := p + 1, bol := c == 10, id := 65535, userId := 65535 } u (by omega) d1 d2 he hs hk
          refine ⟨_, .unknown c u ls hb ho hN b1, _, _, .none r p row0 c (by omega) row ?_ ?_ hc, line_eq (p := p) (v := [c]) (w := u) hd rfl rfl (.inl ⟨rfl, rfl⟩),
            .inr ⟨show (65535 : Nat) ≠ 0 by decide, ls, rfl, b2⟩⟩
          · intro k' g1 g2 x hx
            obtain ⟨i, hi⟩ := List.getElem?_of_mem hx
            obtain ⟨y, P, h3, h4, rfl⟩ := get_same (Ps := texts0) rfl hi
            obtain ⟨m, rfl⟩ : ∃ m, k' = p + m := ⟨k' - p, by omega⟩
            rw [Json.text_take, hd, match0 i y P h3 h4]
            refine hN0 P (List.mem_of_getElem? h4) _ _ (List.take_append_drop m _).symm ?_
            obtain ⟨m, rfl⟩ : ∃ m', m = m' + 1 := ⟨m - 1, by omega⟩
            simp
          · intro x hx
            obtain ⟨i, hi⟩ := List.getElem?_of_mem hx
            obtain ⟨y, P, h3, h4, rfl⟩ := get_same (Ps := texts0) rfl hi
            intro hm
            have hm' : LineMatch false y.2 (([] : List Nat).map .ch) := .inr ⟨by simp, hm⟩
            rw [match0 i y P h3 h4] at hm'
            rcases mem_texts0 (List.mem_of_getElem? h4) with hP | rfl | rfl
            · obtain ⟨_, _, h, _⟩ := toks_first hP hm'
              cases h
            · cases hm'
            · exact hm'.1 rfl

theorem run_unique {npos bytes : Nat} {sm : Internals} {inp : List Nat} {r : Results} {o o' : M (List Line)} (h : Run npos bytes sm inp r o)
    (h' : Run npos bytes sm inp r o') : o = o' := by
  induction h generalizing o' with
  | fault r e h1 =>
    cases h' with
    | fault _ e' g1 => cases returns_unique h1 g1; rfl
    | last _ r' l g1 _ => cases returns_unique h1 g1
    | stop _ r' e' g1 _ => cases returns_unique h1 g1
    | more _ r' l o g1 _ _ _ => cases returns_unique h1 g1
  | last r r' l h1 h2 h3 =>
    cases h' with
    | fault _ e' g1 => cases returns_unique h1 g1
    | last _ r' l g1 g2 _ => cases returns_unique h1 g1; rw [h2] at g2; cases g2; rfl
    | stop _ r' e' g1 g2 => cases returns_unique h1 g1; rw [h2] at g2; cases g2
    | more _ r' l o g1 g2 g3 _ => cases returns_unique h1 g1; exact absurd h3 g3
  | stop r r' e h1 h2 =>
    cases h' with
    | fault _ e' g1 => cases returns_unique h1 g1
    | last _ r' l g1 g2 => cases returns_unique h1 g1; rw [h2] at g2; cases g2
    | stop _ r' e' g1 g2 => cases returns_unique h1 g1; rw [h2] at g2; cases g2; rfl
    | more _ r' l o g1 g2 g3 _ => cases returns_unique h1 g1; rw [h2] at g2; cases g2
  | more r r' l o h1 h2 h3 _ ih =>
    cases h' with
    | fault _ e' g1 => cases returns_unique h1 g1
    | last _ r' l g1 g2 g3 => cases returns_unique h1 g1; exact absurd g3 h3
    | stop _ r' e' g1 g2 => cases returns_unique h1 g1; rw [h2] at g2; cases g2
    | more _ r' l o g1 g2 g3 g4 => cases returns_unique h1 g1; rw [h2] at g2; cases g2; rw [ih g4]

/-! ### What is printed is determined by the text -/

theorem inner_prefix {n : Nat} {v : List Nat} (h : Inner n v) : ∀ {v' w w' : List Nat}, Inner n v' → v ++ w = v' ++ w' → v = v' := by
  induction h with
  | done =>
    intro v' w w' h' e
    match v', e with
    | [], _ => exact absurd (inner_ne h') (by decide)
    | [_], _ => exact absurd (inner_ne h') (by simp)
    | a :: b :: x, e =>
      simp only [List.cons_append, List.cons.injEq] at e
      obtain ⟨rfl, rfl, e⟩ := e
      rcases inner_close h' with ⟨_, rfl⟩ | ⟨m, h1, _⟩
      · rfl
      · omega
  | opn n v _ ih =>
    intro v' w w' h' e
    match v', e with
    | [], _ => exact absurd (inner_ne h') (by decide)
    | [_], _ => exact absurd (inner_ne h') (by simp)
    | a :: b :: x, e =>
      simp only [List.cons_append, List.cons.injEq] at e
      obtain ⟨rfl, rfl, e⟩ := e
      rw [ih (inner_open h') e]
  | cls n v _ ih =>
    intro v' w w' h' e
    match v', e with
    | [], _ => exact absurd (inner_ne h') (by decide)
    | [_], _ => exact absurd (inner_ne h') (by simp)
    | a :: b :: x, e =>
      simp only [List.cons_append, List.cons.injEq] at e
      obtain ⟨rfl, rfl, e⟩ := e
      rcases inner_close h' with ⟨h1, _⟩ | ⟨m, h1, h2⟩
      · omega
      · rw [show m = n from by omega] at h2
        rw [ih h2 e]
  | other n c v h1 h2 hi ih =>
    intro v' w w' h' e
    match v', e with
    | [], _ => exact absurd (inner_ne h') (by decide)
    | [_], _ => exact absurd (inner_ne h') (by simp)
    | a :: b :: x, e =>
      rw [List.cons_append, List.cons_append, List.cons.injEq] at e
      obtain ⟨rfl, e⟩ := e
      obtain ⟨d, y, rfl⟩ := List.exists_cons_of_ne_nil (show v ≠ [] by rintro rfl; exact absurd (inner_ne hi) (by decide))
      have hdb : d = b := by injection e
      subst hdb
      rw [ih (inner_other (v := d :: x) h1 h2 h') e]

theorem takes_unique {Ps : List (List Nat → Prop)} {i j : Nat} {v w v' w' : List Nat} (h : Ocaml.Takes Ps i v w) (h' : Ocaml.Takes Ps j v' w')
    (hu : v ++ w = v' ++ w') : i = j ∧ v = v' ∧ w = w' := by
  obtain ⟨P, hP, hPv⟩ := h.hit
  obtain ⟨Q, hQ, hQv⟩ := h'.hit
  have h1 := h.longest Q (List.mem_of_getElem? hQ) v' w' hu hQv
  have h2 := h'.longest P (List.mem_of_getElem? hP) v w hu.symm hPv
  obtain ⟨rfl, rfl⟩ := List.append_inj hu (by omega)
  refine ⟨?_, rfl, rfl⟩
  rcases Nat.lt_trichotomy i j with hlt | rfl | hlt
  · exact absurd hPv (h'.earliest i P hlt hP)
  · rfl
  · exact absurd hQv (h.earliest j Q hlt hQ)

theorem token_cons {j : Nat} {v w : List Nat} (h : Ocaml.Takes toks j v w) : ∃ c x, v ++ w = c :: x ∧ c ∉ [32, 9, 10] ∧ ¬ (c = 40 ∧ x.head? = some 42) := by
  obtain ⟨P, hP, hPv⟩ := h.hit
  obtain ⟨c, x, rfl, hc, h40⟩ := toks_first (List.mem_of_getElem? hP) hPv
  refine ⟨c, x ++ w, rfl, hc, fun ⟨e1, e2⟩ => ?_⟩
  have := h40 e1
  cases x with
  | nil => cases this
  | cons d x => simp at this e2; omega

theorem prints_unique {u : List Nat} {ls : List Line} (h : Prints u ls) : ∀ {u' : List Nat} {ls' : List Line}, Prints u' ls' → u = u' → ls = ls' := by
  induction h with
  | eof =>
    intro u' ls' h' e
    cases h' with
    | eof => rfl
    | token j k v w ls hT =>
      obtain ⟨c, x, e', _⟩ := token_cons hT
      rw [e'] at e
      cases e
    | _ => cases e
  | blank c w ls hc _ ih =>
    intro u' ls' h' e
    cases h' with
    | eof => cases e
    | blank c' w' _ _ h' => cases e; exact ih h' rfl
    | comment v w' ls' _ _ => cases e; exact absurd hc (by decide)
    | unclosed u _ => cases e; exact absurd hc (by decide)
    | token j k v w' ls' hT _ _ =>
      obtain ⟨c', x, e', h1, _⟩ := token_cons hT
      rw [e'] at e
      cases e
      exact absurd hc h1
    | unknown c' w' ls' h1 _ _ _ => cases e; exact absurd hc h1
  | comment v w ls hi _ ih =>
    intro u' ls' h' e
    cases h' with
    | eof => cases e
    | blank c' w' _ hc _ => cases e; exact absurd hc (by decide)
    | comment v' w' ls' hi' h' =>
      simp only [List.cons.injEq, true_and] at e
      have := inner_prefix hi hi' e
      subst this
      rw [ih h' (List.append_cancel_left e)]
    | unclosed u hu =>
      simp only [List.cons.injEq, true_and] at e
      exact absurd hi (hu v w e.symm)
    | token j k v w' ls' hT _ _ =>
      obtain ⟨c', x, e', _, h1⟩ := token_cons hT
      rw [e'] at e
      cases e
      exact absurd ⟨rfl, rfl⟩ h1
    | unknown c' w' ls' _ h1 _ _ => cases e; exact absurd ⟨rfl, rfl⟩ h1
  | unclosed u hu =>
    intro u' ls' h' e
    cases h' with
    | eof => cases e
    | blank c' w' _ hc _ => cases e; exact absurd hc (by decide)
    | comment v' w' ls' hi' h' =>
      simp only [List.cons.injEq, true_and] at e
      exact absurd hi' (hu v' w' e)
    | unclosed u' _ => cases e; rfl
    | token j k v w' ls' hT _ _ =>
      obtain ⟨c', x, e', _, h1⟩ := token_cons hT
      rw [e'] at e
      cases e
      exact absurd ⟨rfl, rfl⟩ h1
    | unknown c' w' ls' _ h1 _ _ => cases e; exact absurd ⟨rfl, rfl⟩ h1
  | token j k v w ls hT hk _ ih =>
    intro u' ls' h' e
    obtain ⟨c, x, e', h1, h2⟩ := token_cons hT
    cases h' with
    | eof => rw [e'] at e; cases e
    | blank c' w' _ hc _ => rw [e'] at e; cases e; exact absurd hc h1
    | comment v' w' ls' _ _ => rw [e'] at e; cases e; exact absurd ⟨rfl, rfl⟩ h2
    | unclosed u' _ => rw [e'] at e; cases e; exact absurd ⟨rfl, rfl⟩ h2
    | token j' k' v' w' ls' hT' hk' h' =>
      obtain ⟨rfl, rfl, rfl⟩ := takes_unique hT hT' e
      rw [hk] at hk'
      cases hk'
      rw [ih h' rfl]
    | unknown c' w' ls' _ _ hN _ =>
      obtain ⟨P, hP, hPv⟩ := hT.hit
      exact absurd hPv (hN P (List.mem_of_getElem? hP) v w e.symm hT.nonempty)
  | unknown c w ls hc h40 hN _ ih =>
    intro u' ls' h' e
    cases h' with
    | eof => cases e
    | blank c' w' _ h1 _ => cases e; exact absurd h1 hc
    | comment v' w' ls' _ _ => cases e; exact absurd ⟨rfl, rfl⟩ h40
    | unclosed u' _ => cases e; exact absurd ⟨rfl, rfl⟩ h40
    | token j' k' v' w' ls' hT' hk' h' =>
      obtain ⟨P, hP, hPv⟩ := hT'.hit
      exact absurd hPv (hN P (List.mem_of_getElem? hP) v' w' e hT'.nonempty)
    | unknown c' w' ls' _ _ _ h' => cases e; rw [ih h' rfl]

end Lexertl.Ocaml
