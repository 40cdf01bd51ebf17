import Verif.Proofs.CalcLex

/-
The loop of the calculator on a text.
-/
namespace Lexertl.Calc
open Spec Spec.Calc Reading Props

/-! ### Which rule takes a token -/

set_option synthInstance.maxSize 2000 in
set_option synthInstance.maxHeartbeats 200000 in
theorem info_space : ∀ st < 6, ∀ c < 256, isSpace c = true →
    ((info st c).map fun x => (x.2.id, x.2.next, x.2.push, x.2.pop, x.2.many, x.2.set == spaceSet)) = some (65534, st, 65535, false, true, true) := by
  decide +kernel

set_option synthInstance.maxSize 2000 in
set_option synthInstance.maxHeartbeats 200000 in
theorem info_digit : ∀ st < 6, ∀ c < 256, isDigit c = true →
    ((info st c).map fun x => (x.2.id, x.2.next, x.2.push, x.2.pop, x.2.many, x.2.set == digitSet)) =
      if st = 2 ∨ st = 5 then none else some (2, aft st, 65535, false, true, true) := by
  decide +kernel

set_option synthInstance.maxSize 2000 in
set_option synthInstance.maxHeartbeats 200000 in
theorem info_op : ∀ st < 6, ∀ c ∈ opChars,
    ((info st c).map fun x => (x.2.id, x.2.next, x.2.push, x.2.pop, x.2.many)) =
      if st = 2 then some (3, 0, 65535, false, false) else if st = 5 then some (3, 3, 65535, false, false)
      else if c = 45 ∧ st = 0 then some (1, 1, 65535, false, false) else if c = 45 ∧ st = 3 then some (1, 4, 65535, false, false) else none := by
  decide +kernel

set_option synthInstance.maxSize 2000 in
set_option synthInstance.maxHeartbeats 200000 in
theorem info_opn : ∀ st < 6, ((info st 40).map fun x => (x.2.id, x.2.next, x.2.push, x.2.pop, x.2.many)) =
      if st = 2 ∨ st = 5 then none else some (4, 3, aft st, false, false) := by
  decide +kernel

set_option synthInstance.maxSize 2000 in
set_option synthInstance.maxHeartbeats 200000 in
theorem info_cls : ∀ st < 6, ((info st 41).map fun x => (x.2.id, x.2.pop, x.2.many)) = if st = 5 then some (5, true, false) else none := by
  decide +kernel

set_option synthInstance.maxSize 2000 in
set_option synthInstance.maxHeartbeats 200000 in
theorem info_other : ∀ st < 6, ∀ c < 256, isSpace c = false → isDigit c = false → ¬ c ∈ opChars → c ≠ 40 → c ≠ 41 →
    (info st c).isNone = true := by
  decide +kernel

theorem inSet_space (c : Nat) : inSet c spaceSet = isSpace c := by
  simp only [inSet, spaceSet, isSpace, List.any_cons, List.any_nil, Bool.or_false]
  rw [Bool.eq_iff_iff]
  simp
  omega

theorem inSet_digit (c : Nat) : inSet c digitSet = isDigit c := by
  simp [inSet, digitSet, isDigit]

theorem drop_takeWhile {α : Type} (p : α → Bool) (l : List α) : l.drop (l.takeWhile p).length = l.dropWhile p := by
  induction l with
  | nil => rfl
  | cons a l ih =>
    rw [List.takeWhile_cons, List.dropWhile_cons]
    split
    · simpa using ih
    · rfl

/-! ### One call -/

theorem skip_spaces {inp : List Nat} (hinp : ∀ c ∈ inp, c < 256) {r : Results} {p : Nat} (hf : r.first = p) (hp : p ≤ inp.length) (he : r.eoi = inp.length)
    (hst : r.state < 6) :
    ∃ r1 p1, r1.first = p1 ∧ inp.drop p1 = (inp.drop p).dropWhile isSpace ∧ p ≤ p1 ∧ p1 ≤ inp.length ∧ r1.eoi = inp.length ∧ r1.state = r.state ∧
      r1.stack = r.stack ∧ ∀ o, (lexEnv inp).Lex r1 p1 o → (lexEnv inp).Lex r p o := by
  by_cases hs : ∃ c w, inp.drop p = c :: w ∧ isSpace c = true
  · obtain ⟨c, w, hd, hc⟩ := hs
    have hc2 : c < 256 := hinp c (List.mem_of_mem_drop (by rw [hd]; simp))
    obtain ⟨⟨j, e⟩, h1, h2⟩ := Option.map_eq_some_iff.1 (info_space r.state hst c hc2 hc)
    simp only [Prod.mk.injEq] at h2
    obtain ⟨g1, g2, g3, g4, g6, g5⟩ := h2
    have g5 : e.set = spaceSet := eq_of_beq g5
    obtain ⟨b, hb⟩ := lex_space hd he h1 g1 g2 g3 g4
    have hsz : e.size (c :: w) = ((c :: w).takeWhile isSpace).length := by
      unfold Entry.size
      rw [if_pos g6, g5]
      simp only [inSet_space]
    have hle : e.size (c :: w) ≤ (inp.drop p).length := by
      rw [hd, hsz]
      exact (List.takeWhile_sublist _).length_le
    rw [List.length_drop] at hle
    refine ⟨{ r with first := p + e.size (c :: w), second := p + e.size (c :: w), bol := b }, p + e.size (c :: w), rfl, ?_, by omega, by omega, he, rfl, rfl, hb⟩
    rw [← List.drop_drop, hd, hsz, drop_takeWhile]
  · refine ⟨r, p, hf, ?_, Nat.le_refl _, hp, he, rfl, rfl, fun o h => h⟩
    cases hd : inp.drop p with
    | nil => rfl
    | cons c w =>
      rw [List.dropWhile_cons, if_neg fun h => hs ⟨c, w, hd, h⟩]

theorem atoi_num {c : Nat} {w : List Nat} (hc : isDigit c = true) : atoi (c :: w) = int32 (decVal ((c :: w).takeWhile isDigit)) := by
  have hc' : 48 ≤ c ∧ c ≤ 57 := by simpa [isDigit] using hc
  have h1 : isSpace c = false := by
    simp [isSpace]; omega
  unfold atoi
  rw [List.dropWhile_cons, if_neg (by simp [h1])]
  have h2 : ((c :: w).head? == some 45) = false := by simp; omega
  have h3 : ((c :: w).head? == some 43) = false := by simp; omega
  simp only [h2, h3]
  have key : ∀ (l : List Nat) (m : Nat), l.foldl (fun (n : Int) d => n * 10 + (d - 48 : Nat)) (m : Int) =
      ((l.foldl (fun n c => n * 10 + (c - 48)) m : Nat) : Int) := by
    intro l
    induction l with
    | nil => intro m; rfl
    | cons d l ih =>
      intro m
      rw [List.foldl_cons, List.foldl_cons, ← ih]
      congr 1
  rw [if_neg (by simp), if_neg (by simp), key]
  rfl

/-- Lexer state and stack belong together. -/
structure Fits (st : Nat) (k : List (Nat × Nat)) : Prop where
  states : KInv k
  range : st ≤ 5
  outer : st ≤ 2 ↔ k = []

theorem KInv.marked {k : List (Nat × Nat)} (h : KInv k) : ∀ e ∈ k, e.2 = 4 ∧ (e.1 = 2 ∨ e.1 = 5) := by
  induction h with
  | nil => simp
  | one => simp
  | more k _ _ ih =>
    intro e he
    rcases List.mem_cons.1 he with rfl | he
    · simp
    · exact ih e he

theorem Fits.move {st st' : Nat} {k k' : List (Nat × Nat)} (I : Fits st k) {t : Option Tk} (h : move t st k = some (st', k')) : Fits st' k' := by
  obtain ⟨I1, I2, I3⟩ := I
  cases t with
  | none => cases h
  | some t =>
    cases t with
    | num ds =>
      rw [Calc.move] at h
      split at h
      · cases h
      · cases h
        refine ⟨I1, ?_, ?_⟩
        · unfold aft; split <;> omega
        · rw [← I3]; unfold aft; split <;> omega
    | op c =>
      rw [Calc.move] at h
      split at h
      · cases h
        exact ⟨I1, by omega, by rw [← I3]; omega⟩
      split at h
      · cases h
        exact ⟨I1, by omega, by rw [← I3]; omega⟩
      split at h
      · cases h
        exact ⟨I1, by omega, by rw [← I3]; omega⟩
      split at h
      · cases h
        exact ⟨I1, by omega, by rw [← I3]; omega⟩
      · cases h
    | opn =>
      rw [Calc.move] at h
      split at h
      · cases h
      · cases h
        refine ⟨?_, by omega, by simp⟩
        unfold aft
        split
        · have := I3.1 (by omega)
          subst this
          exact .one
        · refine .more _ I1 fun hk => ?_
          have := I3.2 hk
          omega
    | cls =>
      cases k with
      | nil => simp [Calc.move] at h
      | cons e k =>
        rw [Calc.move] at h
        split at h
        · cases h
          cases I1 with
          | one => exact ⟨.nil, by decide, by simp⟩
          | more _ h h' => exact ⟨h, by decide, by simp [h']⟩
        · cases h

/-- One token. -/
theorem token_lex {inp : List Nat} (hinp : ∀ c ∈ inp, c < 256) {r : Results} {p : Nat} (hf : r.first = p) (he : r.eoi = inp.length)
    (I : Fits r.state r.stack) {c : Nat} {w : List Nat} (hd : inp.drop p = c :: w) (hs : isSpace c = false) (s : Stacks) :
    (move (token (c :: w)).1 r.state r.stack = none → ∃ r', (lexEnv inp).Lex r p (.ok r') ∧ r'.id = 65535) ∧
    ∀ st' k', move (token (c :: w)).1 r.state r.stack = some (st', k') →
      ∃ r', (lexEnv inp).Lex r p (.ok r') ∧ r'.id ≠ 0 ∧ r'.state = st' ∧ r'.stack = k' ∧ r'.eoi = inp.length ∧ p < r'.second ∧ r'.second ≤ inp.length ∧
        inp.drop r'.second = (c :: w).drop (token (c :: w)).2 ∧ step 65535 inp r' s = act r.state (token (c :: w)).1 s := by
  have hst : r.state < 6 := by have := I.range; omega
  have hc2 : c < 256 := hinp c (List.mem_of_mem_drop (by rw [hd]; simp))
  have hlt := drop_lt hd
  have hget : inp[p]? = some c := by
    have := congrArg List.head? hd
    rw [List.head?_drop] at this
    exact this
  rw [token]
  by_cases h1 : isDigit c = true
  · rw [if_pos h1]
    have hi := info_digit r.state hst c hc2 h1
    dsimp only
    rw [move]
    by_cases h2 : r.state = 2 ∨ r.state = 5
    · rw [if_pos h2] at hi ⊢
      exact ⟨fun _ => lex_none hd he hst (by simpa using hi), fun _ _ h => by cases h⟩
    · rw [if_neg h2] at hi ⊢
      refine ⟨(fun h => by cases h), fun st' k' h => ?_⟩
      cases h
      obtain ⟨⟨j, e⟩, i1, i2⟩ := Option.map_eq_some_iff.1 hi
      simp only [Prod.mk.injEq] at i2
      obtain ⟨g1, g2, g3, g4, g6, g5⟩ := i2
      have g5 : e.set = digitSet := eq_of_beq g5
      obtain ⟨r', a1, a2, a3, a4, a5, a6, a7⟩ := lex_token hd he i1 (by omega) (by omega) g4
      have hsz : e.size (c :: w) = ((c :: w).takeWhile isDigit).length := by
        unfold Entry.size
        rw [if_pos g6, g5]
        simp only [inSet_digit]
      have hle : e.size (c :: w) ≤ (inp.drop p).length := by
        rw [hd, hsz]
        exact (List.takeWhile_sublist _).length_le
      rw [List.length_drop] at hle
      have hpos : 0 < e.size (c :: w) := by
        rw [hsz, List.takeWhile_cons, if_pos h1]
        simp
      refine ⟨r', a1, by omega, by rw [a6, g2], by rw [a7, if_pos g3], by omega, by omega, by omega, ?_, ?_⟩
      · rw [a4, ← List.drop_drop, hd, hsz]
      · unfold step
        rw [if_neg (by omega), if_neg (by omega), if_neg (by omega), if_pos (by omega), a3, hf, hd, atoi_num h1]
        rfl
  rw [if_neg h1]
  by_cases h2 : c ∈ opChars
  · rw [if_pos h2]
    have hi := info_op r.state hst c h2
    dsimp only
    have hmove : ∀ id nx, ((info r.state c).map fun x => (x.2.id, x.2.next, x.2.push, x.2.pop, x.2.many)) = some (id, nx, 65535, false, false) →
        id ≠ 0 → id ≠ 65534 →
        ∃ r', (lexEnv inp).Lex r p (.ok r') ∧ r'.id = id ∧ r'.first = p ∧ r'.id ≠ 0 ∧ r'.state = nx ∧ r'.stack = r.stack ∧ r'.eoi = inp.length ∧
          p < r'.second ∧ r'.second ≤ inp.length ∧ inp.drop r'.second = (c :: w).drop 1 := by
      intro id nx hi hid hid2
      obtain ⟨⟨j, e⟩, i1, i2⟩ := Option.map_eq_some_iff.1 hi
      simp only [Prod.mk.injEq] at i2
      obtain ⟨g1, g2, g3, g4, g6⟩ := i2
      obtain ⟨r', a1, a2, a3, a4, a5, a6, a7⟩ := lex_token hd he i1 (by omega) (by omega) g4
      have hsz : e.size (c :: w) = 1 := by
        unfold Entry.size
        rw [g6]
        rfl
      refine ⟨r', a1, by omega, by omega, by omega, by rw [a6, g2], by rw [a7, if_pos g3], by omega, by omega, by omega, ?_⟩
      rw [a4, ← List.drop_drop, hd, hsz]
    rw [move]
    by_cases h3 : r.state = 2
    · rw [if_pos h3] at hi ⊢
      refine ⟨(fun h => by cases h), fun st' k' h => ?_⟩
      cases h
      obtain ⟨r', a1, a2, a3, a4, a5, a6, a7, a8, a9, a10⟩ := hmove _ _ hi (by decide) (by decide)
      refine ⟨r', a1, a4, a5, a6, a7, a8, a9, a10, ?_⟩
      unfold step
      rw [if_neg (by omega), if_pos a2, a3, hget, act, if_pos (by omega)]
      rfl
    rw [if_neg h3] at hi ⊢
    by_cases h4 : r.state = 5
    · rw [if_pos h4] at hi ⊢
      refine ⟨(fun h => by cases h), fun st' k' h => ?_⟩
      cases h
      obtain ⟨r', a1, a2, a3, a4, a5, a6, a7, a8, a9, a10⟩ := hmove _ _ hi (by decide) (by decide)
      refine ⟨r', a1, a4, a5, a6, a7, a8, a9, a10, ?_⟩
      unfold step
      rw [if_neg (by omega), if_pos a2, a3, hget, act, if_pos (by omega)]
      rfl
    rw [if_neg h4] at hi ⊢
    by_cases h5 : c = 45 ∧ r.state = 0
    · rw [if_pos h5] at hi ⊢
      refine ⟨(fun h => by cases h), fun st' k' h => ?_⟩
      cases h
      obtain ⟨r', a1, a2, a3, a4, a5, a6, a7, a8, a9, a10⟩ := hmove _ _ hi (by decide) (by decide)
      refine ⟨r', a1, a4, a5, a6, a7, a8, a9, a10, ?_⟩
      unfold step
      rw [if_neg (by omega), if_neg (by omega), if_pos a2, act, if_neg (by omega)]
    rw [if_neg h5] at hi ⊢
    by_cases h6 : c = 45 ∧ r.state = 3
    · rw [if_pos h6] at hi ⊢
      refine ⟨(fun h => by cases h), fun st' k' h => ?_⟩
      cases h
      obtain ⟨r', a1, a2, a3, a4, a5, a6, a7, a8, a9, a10⟩ := hmove _ _ hi (by decide) (by decide)
      refine ⟨r', a1, a4, a5, a6, a7, a8, a9, a10, ?_⟩
      unfold step
      rw [if_neg (by omega), if_neg (by omega), if_pos a2, act, if_neg (by omega)]
    rw [if_neg h6] at hi ⊢
    exact ⟨fun _ => lex_none hd he hst (by simpa using hi), fun _ _ h => by cases h⟩
  rw [if_neg h2]
  by_cases h3 : c = 40
  · subst h3
    rw [if_pos rfl]
    have hi := info_opn r.state hst
    dsimp only
    rw [move]
    by_cases h4 : r.state = 2 ∨ r.state = 5
    · rw [if_pos h4] at hi ⊢
      exact ⟨fun _ => lex_none hd he hst (by simpa using hi), fun _ _ h => by cases h⟩
    · rw [if_neg h4] at hi ⊢
      refine ⟨(fun h => by cases h), fun st' k' h => ?_⟩
      cases h
      obtain ⟨⟨j, e⟩, i1, i2⟩ := Option.map_eq_some_iff.1 hi
      simp only [Prod.mk.injEq] at i2
      obtain ⟨g1, g2, g3, g4, g6⟩ := i2
      obtain ⟨r', a1, a2, a3, a4, a5, a6, a7⟩ := lex_token hd he i1 (by omega) (by omega) g4
      have hsz : e.size (40 :: w) = 1 := by
        unfold Entry.size
        rw [g6]
        rfl
      have haft : aft r.state ≠ 65535 := by unfold aft; split <;> omega
      refine ⟨r', a1, by omega, by rw [a6, g2], by rw [a7, if_neg (by rw [g3]; exact haft), g3, g1], by omega, by omega, by omega, ?_, ?_⟩
      · rw [a4, ← List.drop_drop, hd, hsz]
      · unfold step
        rw [if_neg (by omega), if_neg (by omega), if_neg (by omega), if_neg (by omega), if_pos (by omega)]
        rfl
  rw [if_neg h3]
  by_cases h4 : c = 41
  · subst h4
    rw [if_pos rfl]
    have hi := info_cls r.state hst
    dsimp only
    by_cases h5 : r.state = 5
    · rw [if_pos h5] at hi
      cases hk : r.stack with
      | nil =>
        have := I.outer.2 hk
        omega
      | cons x k =>
        rw [move, if_pos h5]
        refine ⟨(fun h => by cases h), fun st' k' h => ?_⟩
        cases h
        obtain ⟨⟨j, e⟩, i1, i2⟩ := Option.map_eq_some_iff.1 hi
        simp only [Prod.mk.injEq] at i2
        obtain ⟨g1, g4, g6⟩ := i2
        obtain ⟨r', a1, a2, a3, a4, a5, a6, a7⟩ := lex_pop hd he i1 (by omega) (by omega) g4 hk (fun y hy => by
          have := (I.states.marked y (by rw [hk]; exact List.mem_cons_of_mem _ hy)).1
          omega)
        have hsz : e.size (41 :: w) = 1 := by
          unfold Entry.size
          rw [g6]
          rfl
        refine ⟨r', a1, by omega, a6, a7, by omega, by omega, by omega, ?_, ?_⟩
        · rw [a4, ← List.drop_drop, hd, hsz]
        · unfold step
          rw [if_neg (by omega), if_neg (by omega), if_neg (by omega), if_neg (by omega), if_neg (by omega), if_pos (by omega)]
          rfl
    · rw [if_neg h5] at hi
      rw [show move (some .cls) r.state r.stack = none from by cases r.stack <;> simp [move, h5]]
      exact ⟨fun _ => lex_none hd he hst (by simpa using hi), fun _ _ h => by cases h⟩
  rw [if_neg h4]
  refine ⟨fun _ => lex_none hd he hst ?_, fun _ _ h => by cases h⟩
  have := info_other r.state hst c hc2 hs (by simpa using h1) h2 h3 h4
  simpa using this

/-! ### The loop -/

theorem loop_scan {sm : Internals} {inp : List Nat} (hinp : ∀ c ∈ inp, c < 256)
    (hL : ∀ r : Results, r.state < 6 → (∀ e ∈ r.stack, e.1 < 6) → r.second ≤ r.eoi → r.eoi ≤ inp.length → ∀ out : M Results,
      Returns flags 65535 1 sm inp r out ↔ (lexEnv inp).Lex { r with first := r.second } r.second out) :
    ∀ (n : Nat) (r : Results) (s : Stacks), inp.length - r.second < n → r.second ≤ inp.length → r.eoi = inp.length → Fits r.state r.stack →
      Loop 65535 sm inp r s (exec (scan n (inp.drop r.second)) r.state r.stack s)
  | 0, _, _, h, _, _, _ => by omega
  | n + 1, r, s, hn, hr, he, I => by
    have hst : r.state < 6 := by have := I.range; omega
    have hL' := hL
    have hL := hL r hst (fun e h => by have := (I.states.marked e h).2; omega) (by omega) (by omega)
    obtain ⟨r1, p1, b1, b2, b3, b4, b5, b6, b7, b8⟩ := skip_spaces hinp (r := { r with first := r.second }) rfl hr he hst
    have b6 : r1.state = r.state := b6
    have b7 : r1.stack = r.stack := b7
    have b3 : r.second ≤ p1 := b3
    rw [scan]
    cases hd : (inp.drop r.second).dropWhile isSpace with
    | nil =>
      rw [hd] at b2
      have hp : p1 = r1.eoi := by
        have := congrArg List.length b2
        simp only [List.length_drop, List.length_nil] at this
        omega
      have h1 := (hL _).2 (b8 _ (by rw [hp]; exact .eoi r1))
      have := Loop.last (npos := 65535) r s _ s h1 rfl rfl
      dsimp only at this ⊢
      rw [exec, ← b6]
      exact this
    | cons c w =>
      rw [hd] at b2
      have hs : isSpace c = false := by
        have : ∀ l : List Nat, l.dropWhile isSpace = c :: w → isSpace c = false := by
          intro l
          induction l with
          | nil => simp
          | cons a l ih =>
            rw [List.dropWhile_cons]
            split
            · exact ih
            · rintro h
              cases h
              rename_i ha
              simpa using ha
        exact this _ hd
      obtain ⟨t1, t2⟩ := token_lex hinp b1 b5 (by rw [b6, b7]; exact I) b2 hs s
      rw [b6, b7] at t1 t2
      dsimp only
      rw [exec]
      cases hm : move (token (c :: w)).1 r.state r.stack with
      | none =>
        obtain ⟨r', c1, c2⟩ := t1 hm
        refine .stop r s r' _ ((hL _).2 (b8 _ c1)) ?_
        unfold step
        rw [if_pos c2]
      | some x =>
        obtain ⟨st', k'⟩ := x
        obtain ⟨r', c1, c2, c3, c4, c5, c6, c7, c8, c9⟩ := t2 st' k' hm
        dsimp only
        cases ha : act r.state (token (c :: w)).1 s with
        | error e =>
          rw [ha] at c9
          exact .stop r s r' e ((hL _).2 (b8 _ c1)) c9
        | ok s' =>
          rw [ha] at c9
          refine .more r s r' s' _ ((hL _).2 (b8 _ c1)) c9 c2 ?_
          have := loop_scan hinp hL' n r' s' (by omega) c7 c5 (by rw [c3, c4]; exact I.move hm)
          rw [c8, c3, c4] at this
          exact this

/-! ### Tokens and how they are written -/

theorem isSpace_iff (c : Nat) : isSpace c = true ↔ IsSpace c := by
  simp only [isSpace, IsSpace, Bool.or_eq_true, beq_iff_eq, Bool.and_eq_true, decide_eq_true_eq, List.mem_cons, List.not_mem_nil, or_false]
  omega

theorem isDigit_iff (c : Nat) : isDigit c = true ↔ Digit c := by
  simp only [isDigit, Digit, Bool.and_eq_true, decide_eq_true_eq]

theorem dropWhile_spaces {w l : List Nat} (hw : ∀ c ∈ w, IsSpace c) : (w ++ l).dropWhile isSpace = l.dropWhile isSpace := by
  induction w with
  | nil => rfl
  | cons a w ih =>
    rw [List.cons_append, List.dropWhile_cons, if_pos ((isSpace_iff a).2 (hw a (by simp)))]
    exact ih fun c hc => hw c (by simp [hc])

theorem takeWhile_digits {v u : List Nat} (hv : ∀ c ∈ v, 48 ≤ c ∧ c ≤ 57) (hu : ∀ c ∈ u.head?, ¬ Digit c) : (v ++ u).takeWhile isDigit = v := by
  induction v with
  | nil =>
    cases u with
    | nil => rfl
    | cons a u =>
      rw [List.nil_append, List.takeWhile_cons, if_neg fun h => hu a rfl ((isDigit_iff a).1 h)]
  | cons a v ih =>
    rw [List.cons_append, List.takeWhile_cons, if_pos ((isDigit_iff a).2 (hv a (by simp))), ih fun c hc => hv c (by simp [hc])]

/-- The tokeniser reads the token that is written. -/
theorem token_writes {t : Tk} {v u : List Nat} (h : Writes t v) (hu : ∀ ds, t = .num ds → ∀ c ∈ u.head?, ¬ Digit c) :
    token (v ++ u) = (some t, v.length) ∧ 0 < v.length ∧ (v ++ u).dropWhile isSpace = v ++ u := by
  cases h with
  | num _ hd =>
    obtain ⟨h1, h2⟩ := hd
    cases v with
    | nil => exact absurd rfl h1
    | cons a v =>
      have ha := h2 a (by simp)
      have ha1 : isDigit a = true := (isDigit_iff a).2 ha
      refine ⟨?_, by simp, ?_⟩
      · rw [List.cons_append, token, if_pos ha1, ← List.cons_append, takeWhile_digits h2 (hu _ rfl)]
      · rw [List.cons_append, List.dropWhile_cons, if_neg]
        simp [isSpace]
        omega
  | op c hc =>
    have h1 : ∀ c ∈ opChars, isDigit c = false ∧ isSpace c = false := by decide
    refine ⟨?_, by simp, ?_⟩
    · show token (c :: u) = _
      rw [token, if_neg (by simp [(h1 c hc).1]), if_pos hc]
      rfl
    · show (c :: u).dropWhile isSpace = c :: u
      rw [List.dropWhile_cons, if_neg (by simp [(h1 c hc).2])]
  | opn => exact ⟨rfl, by simp, rfl⟩
  | cls => exact ⟨rfl, by simp, rfl⟩

theorem scan_nil (n : Nat) {w : List Nat} (hw : ∀ c ∈ w, IsSpace c) : scan n w = [] := by
  cases n with
  | zero => rfl
  | succ n =>
    have := dropWhile_spaces (l := []) hw
    rw [List.append_nil] at this
    rw [scan, this]
    rfl

theorem scan_spells {w : List Nat} {ts : List Tk} (h : Spells w ts) : ∀ n, w.length < n → scan n w = ts.map some := by
  induction h with
  | nil w hw => exact fun n _ => scan_nil n hw
  | cons w t v u ts hw hv _ hu ih =>
    intro n hn
    obtain ⟨n, rfl⟩ : ∃ m, n = m + 1 := ⟨n - 1, by omega⟩
    obtain ⟨h1, h2, h3⟩ := token_writes hv hu
    rw [scan, List.append_assoc, dropWhile_spaces hw, h3]
    cases hvu : v ++ u with
    | nil =>
      have := congrArg List.length hvu
      simp only [List.length_append, List.length_nil] at this
      omega
    | cons c l =>
      dsimp only
      rw [← hvu, h1]
      simp only [List.length_append] at hn
      rw [List.drop_left, ih n (by omega)]
      rfl

/-- What the tokeniser reads is written there. -/
theorem writes_token {l : List Nat} {t : Tk} (h : (token l).1 = some t) :
    ∃ v u, l = v ++ u ∧ Writes t v ∧ (token l).2 = v.length ∧ ∀ ds, t = .num ds → ∀ c ∈ u.head?, ¬ Digit c := by
  cases l with
  | nil => cases h
  | cons c w =>
    have hval := token_valid (c :: w)
    rw [token] at h hval ⊢
    by_cases h1 : isDigit c = true
    · rw [if_pos h1] at h hval ⊢
      cases h
      refine ⟨(c :: w).takeWhile isDigit, (c :: w).dropWhile isDigit, List.takeWhile_append_dropWhile.symm, .num _ hval, rfl, ?_⟩
      intro ds _ x hx hd
      have := List.head?_dropWhile_not isDigit (c :: w)
      rw [Option.mem_def.1 hx] at this
      dsimp only at this
      rw [(isDigit_iff x).2 hd] at this
      cases this
    rw [if_neg h1] at h hval ⊢
    by_cases h2 : c ∈ opChars
    · rw [if_pos h2] at h ⊢
      cases h
      exact ⟨[c], w, rfl, .op c h2, rfl, fun _ h => by cases h⟩
    rw [if_neg h2] at h ⊢
    by_cases h3 : c = 40
    · rw [if_pos h3] at h ⊢
      cases h
      subst h3
      exact ⟨[40], w, rfl, .opn, rfl, fun _ h => by cases h⟩
    rw [if_neg h3] at h ⊢
    by_cases h4 : c = 41
    · rw [if_pos h4] at h ⊢
      cases h
      subst h4
      exact ⟨[41], w, rfl, .cls, rfl, fun _ h => by cases h⟩
    rw [if_neg h4] at h
    cases h

theorem spells_scan : ∀ (n : Nat) (w : List Nat) (ts : List Tk), w.length < n → scan n w = ts.map some → Spells w ts
  | 0, _, _, h, _ => by omega
  | n + 1, w, ts, hn, h => by
    have hsplit : w = w.takeWhile isSpace ++ w.dropWhile isSpace := List.takeWhile_append_dropWhile.symm
    have hsp : ∀ c ∈ w.takeWhile isSpace, IsSpace c := fun c hc =>
      (isSpace_iff c).1 (List.all_eq_true.1 (List.all_takeWhile (l := w)) c hc)
    rw [scan] at h
    cases hd : w.dropWhile isSpace with
    | nil =>
      rw [hd] at h hsplit
      cases ts with
      | nil =>
        rw [hsplit, List.append_nil]
        exact .nil _ hsp
      | cons t ts => cases h
    | cons c l =>
      rw [hd] at h hsplit
      cases ts with
      | nil => cases h
      | cons t ts =>
        simp only [List.map_cons, List.cons.injEq] at h
        obtain ⟨h1, h2⟩ := h
        obtain ⟨v, u, g1, g2, g3, g4⟩ := writes_token h1
        rw [g1] at h2 g3 hsplit
        rw [g3, List.drop_left] at h2
        have hlen := congrArg List.length hsplit
        have hv : 0 < v.length := by
          cases g2 with
          | num _ hd => exact List.length_pos_iff.2 hd.1
          | op => simp
          | opn => simp
          | cls => simp
        simp only [List.length_append] at hlen
        have := Spells.cons _ t v u ts hsp g2 (spells_scan n u ts (by omega) h2) g4
        rw [hsplit, ← List.append_assoc]
        exact this

/-! ### The loop has one outcome -/

theorem loop_unique {npos : Nat} {sm : Internals} {inp : List Nat} {r : Results} {s : Stacks} {o o' : M (Nat × Stacks)}
    (h : Loop npos sm inp r s o) (h' : Loop npos sm inp r s o') : o = o' := by
  induction h generalizing o' with
  | fault r s e h =>
    cases h' with
    | fault _ _ e' h' =>
      have := returns_unique h h'
      cases this; rfl
    | stop _ _ r' e' h' _ => have := returns_unique h h'; cases this
    | more _ _ r' s' _ h' _ _ _ => have := returns_unique h h'; cases this
    | last _ _ r' s' h' _ _ => have := returns_unique h h'; cases this
  | stop r s r1 e h g =>
    cases h' with
    | fault _ _ e' h' => have := returns_unique h h'; cases this
    | stop _ _ r' e' h' g' =>
      have := returns_unique h h'
      cases this
      rw [g] at g'
      cases g'; rfl
    | more _ _ r' s' _ h' g' _ _ =>
      have := returns_unique h h'
      cases this
      rw [g] at g'
      cases g'
    | last _ _ r' s' h' g' _ =>
      have := returns_unique h h'
      cases this
      rw [g] at g'
      cases g'
  | more r s r1 s1 o h g hn _ ih =>
    cases h' with
    | fault _ _ e' h' => have := returns_unique h h'; cases this
    | stop _ _ r' e' h' g' =>
      have := returns_unique h h'
      cases this
      rw [g] at g'
      cases g'
    | more _ _ r' s' _ h' g' _ l' =>
      have := returns_unique h h'
      cases this
      rw [g] at g'
      cases g'
      exact ih l'
    | last _ _ r' s' h' g' hn' =>
      have := returns_unique h h'
      cases this
      exact absurd hn' hn
  | last r s r1 s1 h g hn =>
    cases h' with
    | fault _ _ e' h' => have := returns_unique h h'; cases this
    | stop _ _ r' e' h' g' =>
      have := returns_unique h h'
      cases this
      rw [g] at g'
      cases g'
    | more _ _ r' s' _ h' g' hn' _ =>
      have := returns_unique h h'
      cases this
      exact absurd hn hn'
    | last _ _ r' s' h' g' hn' =>
      have := returns_unique h h'
      cases this
      rw [g] at g'
      cases g'
      rfl

end Lexertl.Calc
