import Verif.Proofs.Dump
import Verif.Proofs.Means

/-
Printed machines: the text determines what was printed.
-/
namespace Lexertl.Dump
open Spec Reading

/-! ### The text of a charset -/

theorem num_print {b : Nat} (hb : 0 < b) (hb' : b ≤ 16) (n : Nat) : ∀ c ∈ numText b n, 48 ≤ c ∧ c ≤ 102 := by
  intro c h
  have := (numText_dig hb hb' n c h).1
  unfold IsDig at this; omega

theorem escape_print (a : Nat) : ∀ c ∈ escapeChar 16 a, 32 ≤ c ∧ c ≤ 126 := by
  by_cases h : a ∈ escapedChars
  · simp only [escapedChars, List.mem_cons, List.not_mem_nil, or_false] at h
    rcases h with rfl | rfl | rfl | rfl | rfl | rfl | rfl | rfl | rfl | rfl | rfl | rfl <;> decide
  · rw [escapeChar_other 16 h]
    split
    · intro c hc
      simp only [List.mem_cons] at hc
      rcases hc with rfl | rfl | hc
      · omega
      · omega
      · have := num_print (by omega) (by omega) a c hc; omega
    · intro c hc
      simp at hc; omega

theorem range_print (r : Range) : ∀ c ∈ dumpRange 16 r, 32 ≤ c ∧ c ≤ 126 := by
  intro c hc
  unfold dumpRange at hc
  simp only [List.mem_append] at hc
  rcases hc with ((hc | hc) | hc) | hc
  · split at hc <;> simp at hc; omega
  · split at hc <;> simp at hc; omega
  · exact escape_print _ c hc
  · split at hc
    · simp only [List.mem_append] at hc
      rcases hc with hc | hc
      · split at hc <;> simp at hc; omega
      · exact escape_print _ c hc
    · simp at hc

theorem escape_shape (a : Nat) : (escapeChar 16 a).head? = some 92 ∨ escapeChar 16 a = [a] := by
  by_cases h : a ∈ escapedChars
  · simp only [escapedChars, List.mem_cons, List.not_mem_nil, or_false] at h
    rcases h with rfl | rfl | rfl | rfl | rfl | rfl | rfl | rfl | rfl | rfl | rfl | rfl <;> exact .inl rfl
  · rw [escapeChar_other 16 h]
    split
    · exact .inl rfl
    · exact .inr rfl

/-- The text of a charset: printable characters; it starts with `[` or a backslash, or is a
single character. -/
structure SetText (s : List Nat) : Prop where
  print : ∀ c ∈ s, 32 ≤ c ∧ c ≤ 126
  shape : s.head? = some 91 ∨ s.head? = some 92 ∨ ∃ c, s = [c]

theorem setText {max : Nat} (hmax : 127 ≤ max) {t : Token} {s : List Nat} (h : dumpCharset max 16 t = .ok s) : SetText s := by
  unfold dumpCharset at h
  cases t with
  | nil => simp at h
  | cons r rs =>
    simp only at h
    generalize hneg : (!Token.any max (r :: rs) && Token.negatable max (r :: rs)) = neg at h
    generalize htok : (if neg = true then Token.negate max (r :: rs) else r :: rs) = tok at h
    generalize hop : (if rs ≠ [] ∨ r.1 ≠ r.2 then [91] else if r.1 ∈ dumpMeta then [92] else []) = op at h
    have hopp : ∀ c ∈ op, c = 91 ∨ c = 92 := by
      intro c hc
      rw [← hop] at hc
      split at hc
      · simp at hc; omega
      · split at hc <;> simp at hc; omega
    have hprint : ∀ c ∈ op ++ (if neg = true then [94] else []) ++ tok.flatMap (dumpRange 16), 32 ≤ c ∧ c ≤ 126 := by
      intro c hc
      simp only [List.mem_append, List.mem_flatMap] at hc
      rcases hc with (hc | hc) | ⟨q, _, hc⟩
      · have := hopp c hc; omega
      · split at hc <;> simp at hc; omega
      · exact range_print q c hc
    have hp : ∀ c ∈ s, 32 ≤ c ∧ c ≤ 126 := by
      have : s = op ++ (if neg = true then [94] else []) ++ tok.flatMap (dumpRange 16) ∨
          s = op ++ (if neg = true then [94] else []) ++ tok.flatMap (dumpRange 16) ++ [93] := by
        split at h
        · split at h
          · rename_i hn
            injection h with h; right; rw [← h, if_pos hn]
          · simp at h
        · split at h
          · injection h with h; exact .inr h.symm
          · injection h with h; exact .inl h.symm
      rcases this with rfl | rfl
      · exact hprint
      · intro c hc
        rw [List.mem_append] at hc
        rcases hc with hc | hc
        · exact hprint c hc
        · simp at hc; omega
    refine ⟨hp, ?_⟩
    by_cases h1 : rs ≠ [] ∨ r.1 ≠ r.2
    · left
      rw [if_pos h1] at hop
      subst hop
      split at h
      · split at h
        · injection h with h; rw [← h]; rfl
        · simp at h
      · split at h <;> (injection h with h; rw [← h]; rfl)
    · rw [if_neg h1] at hop
      by_cases h2 : r.1 ∈ dumpMeta
      · right; left
        rw [if_pos h2] at hop
        subst hop
        split at h
        · split at h
          · injection h with h; rw [← h]; rfl
          · simp at h
        · split at h <;> (injection h with h; rw [← h]; rfl)
      · rw [if_neg h2] at hop
        subst hop
        have hrs : rs = [] := Classical.byContradiction fun h => h1 (.inl h)
        have hr : r.1 = r.2 := Classical.byContradiction fun h => h1 (.inr h)
        obtain ⟨a, b⟩ := r
        simp only at hr
        subst hr hrs
        have hfalse : neg = false := by
          rw [← Bool.not_eq_true, ← hneg, negated_iff]
          intro h
          have := h.1
          simp only [charCount] at this
          omega
        subst hfalse
        simp only [Bool.false_eq_true, if_false] at htok
        subst htok
        simp at h
        subst h
        right
        unfold dumpRange
        split
        · exact .inl rfl
        · simp only [ne_eq, not_true_eq_false, false_and, if_false, List.nil_append, List.append_nil]
          rcases escape_shape a with h | h
          · exact .inl h
          · exact .inr ⟨a, h⟩

/-! ### A charset is determined by its text -/

/-- An environment with this maximal character. -/
def envOf (max : Nat) : TokEnv where
  max := max
  size := 4
  upper c := c
  lower c := c
  isAlnum _ := false
  isAlpha _ := false
  isLower _ := false
  isUpper _ := false
  fold2 := []
  fold4 := []
  unicode _ := none

theorem envOf_ok {max : Nat} (h : 127 ≤ max) : TokEnvOk (envOf max) where
  big := h
  byte h := by simp [envOf] at h
  upper c hc := hc
  lower c hc := hc
  fold2 := by simp [envOf]
  fold4 := by simp [envOf]
  classes := by simp [envOf]
  unicode := by simp [envOf]
  nest := by simp [envOf]

theorem envOf_chars {max : Nat} (h : max < 2 ^ 64) : CharsOk (envOf max) where
  small := h
  fold2 := ⟨.nil, by simp [envOf]⟩
  fold4 := ⟨.nil, by simp [envOf]⟩
  first2 := by simp [envOf]
  up4 := by simp [envOf]
  classes c h := by simp [envOf] at h

theorem charset_inj {max : Nat} (h1 : 127 ≤ max) (h2 : max < 2 ^ 64) {t u : Token} {s : List Nat} (ht : SetOk max t) (hu : SetOk max u)
    (hct : Clear max t) (hcu : Clear max u) (h : dumpCharset max 16 t = .ok s) (h' : dumpCharset max 16 u = .ok s) : t = u := by
  obtain ⟨w, g1, g2⟩ := charset_means (E := envOf max) h1 ht hct
  obtain ⟨v, g3, g4⟩ := charset_means (E := envOf max) h1 hu hcu
  have e1 : w = s := by
    have := g1.symm.trans h
    injection this
  have e2 : v = s := by
    have := g3.symm.trans h'
    injection this
  subst e1; subst e2
  have hw : TextOk (envOf max) v := fun c hc => by
    have := ((setText h1 h).print c hc).2
    show c ≤ max
    omega
  have hM : MacrosMean (envOf max) [] [] := by intro name r h; simp [find] at h
  obtain ⟨us, k1, k2, _⟩ := tokenise_macro (envOf_ok h1) (envOf_chars h2) hM (g2 [] {} rfl rfl) hw
  obtain ⟨vs, k3, k4, _⟩ := tokenise_macro (envOf_ok h1) (envOf_chars h2) hM (g4 [] {} rfl rfl) hw
  rw [k3] at k1
  injection k1 with k1
  simp only [List.cons_append, List.cons.injEq, true_and, and_true] at k1
  rw [(List.append_inj' k1 rfl).1] at k4
  injection derives_unique k2 k4

/-! ### Lines -/

theorem sep_inj {s : Nat} {a b r r' : List Nat} (ha : s ∉ a) (hb : s ∉ b) (h : a ++ s :: r = b ++ s :: r') : a = b ∧ r = r' := by
  induction a generalizing b with
  | nil =>
    cases b with
    | nil => simpa using h
    | cons x b => simp at h hb; exact absurd h.1 hb.1
  | cons x a ih =>
    cases b with
    | nil => simp at h ha; exact absurd h.1.symm ha.1
    | cons y b =>
      simp only [List.cons_append, List.cons.injEq] at h
      have := ih (fun h => ha (by simp [h])) (fun h => hb (by simp [h])) h.2
      exact ⟨by rw [h.1, this.1], this.2⟩

/-- A text and a number after a space. -/
theorem word_inj {x y n n' : List Nat} (hn : 32 ∉ n) (hn' : 32 ∉ n') (h : x ++ 32 :: n = y ++ 32 :: n') : x = y ∧ n = n' := by
  have h1 := congrArg List.reverse h
  simp only [List.reverse_append, List.reverse_cons, List.append_assoc, List.singleton_append] at h1
  have h2 := sep_inj (by simpa using hn) (by simpa using hn') h1
  exact ⟨List.reverse_inj.1 h2.2, List.reverse_inj.1 h2.1⟩

theorem num10 (n : Nat) : ∀ c ∈ numText 10 n, 48 ≤ c ∧ c ≤ 102 := num_print (by omega) (by omega) n

theorem num_no {c : Nat} (h : c < 48) (n : Nat) : c ∉ numText 10 n := fun h' => by
  have := num10 n c h'; omega

theorem num_inj {m n : Nat} (h : numText 10 m = numText 10 n) : m = n := numText_inj (by omega) (by omega) h

/-- A text and a number, cut apart: the text ends in a space. -/
theorem cut {x y : List Nat} {m n : Nat} (h : x ++ [32] ++ numText 10 m = y ++ [32] ++ numText 10 n) : x = y ∧ m = n := by
  have := word_inj (num_no (by omega) m) (num_no (by omega) n) (by simpa using h)
  exact ⟨this.1, num_inj this.2⟩

/-! ### Transitions -/

/-- The first four characters are none of those that start the other lines of a state. -/
def Other (x : List Nat) : Prop := x.take 4 ∉ [chars "  EN", chars "  BO", chars "  EO"]

theorem arrow_eq : chars " -> " = [32, 45, 62] ++ [32] := by decide

theorem other_trans {max : Nat} (hmax : 127 ≤ max) {m : List (Nat × Token)} {w rest : List Nat} (h : dumpTransitions max 16 m = .ok w) :
    Other (w ++ 10 :: rest) := by
  cases m with
  | nil =>
    simp only [dumpTransitions] at h
    injection h with h
    subst h
    simp [Other, chars]
  | cons p m =>
    obtain ⟨k, t⟩ := p
    simp only [dumpTransitions] at h
    cases hs : dumpCharset max 16 t with
    | error e => rw [hs] at h; simp [bind, Except.bind] at h
    | ok s =>
      rw [hs] at h
      simp only [bind, Except.bind] at h
      split at h
      · simp at h
      · injection h with h
        subst h
        have hx := (setText hmax hs).shape
        unfold Other
        rcases hx with hx | hx | ⟨c, hx⟩
        · cases s with
          | nil => simp at hx
          | cons c s => simp at hx; subst hx; simp [chars]
        · cases s with
          | nil => simp at hx
          | cons c s => simp at hx; subst hx; simp [chars]
        · subst hx; simp [chars]

theorem trans_inj {max : Nat} (h1 : 127 ≤ max) (h2 : max < 2 ^ 64) : ∀ {m m' : List (Nat × Token)} {w w' r r' : List Nat},
    (∀ p ∈ m, SetOk max p.2 ∧ Clear max p.2) → (∀ p ∈ m', SetOk max p.2 ∧ Clear max p.2) →
    dumpTransitions max 16 m = .ok w → dumpTransitions max 16 m' = .ok w' → w ++ 10 :: r = w' ++ 10 :: r' → m = m' ∧ r = r' := by
  have line : ∀ {k : Nat} {t : Token} {m : List (Nat × Token)} {w : List Nat}, dumpTransitions max 16 ((k, t) :: m) = .ok w →
      ∃ s v : List Nat, dumpCharset max 16 t = .ok s ∧ dumpTransitions max 16 m = .ok v ∧
        w = (chars "  " ++ s ++ chars " -> " ++ numText 10 k) ++ 10 :: v := by
    intro k t m w h
    simp only [dumpTransitions] at h
    cases hs : dumpCharset max 16 t with
    | error e => rw [hs] at h; simp [bind, Except.bind] at h
    | ok s =>
      rw [hs] at h
      simp only [bind, Except.bind] at h
      cases hv : dumpTransitions max 16 m with
      | error e => rw [hv] at h; simp at h
      | ok v =>
        rw [hv] at h
        simp only at h
        injection h with h
        exact ⟨s, v, rfl, rfl, by rw [← h]; simp⟩
  intro m
  induction m with
  | nil =>
    intro m' w w' r r' _ _ hw hw' h
    simp only [dumpTransitions] at hw
    injection hw with hw
    subst hw
    cases m' with
    | nil =>
      simp only [dumpTransitions] at hw'
      injection hw' with hw'
      subst hw'
      simpa using h
    | cons p m' =>
      obtain ⟨s, v, _, _, e⟩ := line hw'
      subst e
      simp [chars] at h
  | cons p m ih =>
    intro m' w w' r r' hm hm' hw hw' h
    obtain ⟨k, t⟩ := p
    obtain ⟨s, v, g1, g2, e⟩ := line hw
    subst e
    cases m' with
    | nil =>
      simp only [dumpTransitions] at hw'
      injection hw' with hw'
      subst hw'
      simp [chars] at h
    | cons p' m' =>
      obtain ⟨k', t'⟩ := p'
      obtain ⟨s', v', g1', g2', e⟩ := line hw'
      subst e
      have nl : ∀ {s : List Nat} {k : Nat}, SetText s → 10 ∉ chars "  " ++ s ++ chars " -> " ++ numText 10 k := by
        intro s k hs h
        simp only [List.mem_append] at h
        rcases h with ((h | h) | h) | h
        · revert h; decide
        · have := hs.print 10 h; omega
        · revert h; decide
        · exact num_no (by omega) k h
      rw [List.append_assoc, List.append_assoc (chars "  " ++ s' ++ chars " -> " ++ numText 10 k'), List.cons_append, List.cons_append] at h
      have h3 := sep_inj (nl (setText h1 g1)) (nl (setText h1 g1')) h
      have h4 : (chars "  " ++ s ++ [32, 45, 62]) ++ [32] ++ numText 10 k = (chars "  " ++ s' ++ [32, 45, 62]) ++ [32] ++ numText 10 k' := by
        have := h3.1
        rw [arrow_eq] at this
        simpa using this
      have h5 := cut h4
      have h6 : s = s' := by
        have := List.append_cancel_right h5.1
        exact List.append_cancel_left this
      subst h6
      have h7 : t = t' := charset_inj h1 h2 (hm (k, t) (by simp)).1 (hm' (k', t') (by simp)).1 (hm (k, t) (by simp)).2
        (hm' (k', t') (by simp)).2 g1 g1'
      have h8 := ih (fun p hp => hm p (by simp [hp])) (fun p hp => hm' p (by simp [hp])) g2 g2' h3.2
      exact ⟨by rw [h5.2, h7, h8.1], h8.2⟩

/-! ### States -/

/-- The line of an end state, up to the newline. -/
def endLine (s : CState) : List Nat :=
  chars "  END STATE" ++
    (match s.pushPop with
      | .push => chars ", PUSH " ++ numText 10 s.pushDfa
      | .pop => chars ", POP"
      | .neither => []) ++
    chars ", Id = " ++ numText 10 s.id ++ chars ", User Id = " ++ numText 10 s.userId ++
    chars ", dfa = " ++ numText 10 s.nextDfa

theorem dumpEnd_eq (s : CState) : dumpEnd s = if s.endState then endLine s ++ [10] else [] := by
  unfold dumpEnd endLine
  cases s.endState <;> rfl

theorem endLine_no (s : CState) : 10 ∉ endLine s := by
  unfold endLine
  simp only [List.mem_append, not_or]
  refine ⟨⟨⟨⟨⟨⟨⟨by decide, ?_⟩, by decide⟩, num_no (by omega) _⟩, by decide⟩, num_no (by omega) _⟩, by decide⟩, num_no (by omega) _⟩
  cases s.pushPop with
  | push =>
    simp only [List.mem_append, not_or]
    exact ⟨by decide, num_no (by omega) _⟩
  | pop => show 10 ∉ chars ", POP"; decide
  | neither => simp

theorem endLine_inj {s s' : CState} (h : endLine s = endLine s') : s.pushPop = s'.pushPop ∧ (s.pushPop = .push → s.pushDfa = s'.pushDfa) ∧
    s.id = s'.id ∧ s.userId = s'.userId ∧ s.nextDfa = s'.nextDfa := by
  unfold endLine at h
  have e1 : chars ", Id = " = chars ", Id =" ++ [32] := by decide
  have e2 : chars ", User Id = " = chars ", User Id =" ++ [32] := by decide
  have e3 : chars ", dfa = " = chars ", dfa =" ++ [32] := by decide
  have e4 : chars ", PUSH " = chars ", PUSH" ++ [32] := by decide
  rw [e1, e2, e3, e4] at h
  simp only [← List.append_assoc] at h
  obtain ⟨h, g3⟩ := cut h
  have h := List.append_cancel_right h
  obtain ⟨h, g2⟩ := cut h
  have h := List.append_cancel_right h
  obtain ⟨h, g1⟩ := cut h
  have h := List.append_cancel_right h
  have h := List.append_cancel_left h
  refine ⟨?_, ?_, g1, g2, g3⟩
  · revert h
    cases s.pushPop <;> cases s'.pushPop <;> intro h <;> first | rfl | (simp [chars] at h)
  · intro hp
    rw [hp] at h
    revert h
    cases s'.pushPop <;> intro h
    · simp [chars] at h
    · exact (cut h).2
    · simp [chars] at h

/-- An optional line with a number. -/
def optLine (word : List Nat) (npos n : Nat) : List Nat := if n ≠ npos then word ++ [32] ++ numText 10 n ++ [10] else []

theorem optLine_inj {word : List Nat} {npos n n' : Nat} {r r' : List Nat} (h10 : 10 ∉ word) (h4 : 4 ≤ word.length)
    (hr : r.take 4 ≠ word.take 4) (hr' : r'.take 4 ≠ word.take 4) (h : optLine word npos n ++ r = optLine word npos n' ++ r') :
    n = n' ∧ r = r' := by
  have htake : ∀ x, (word ++ x).take 4 = word.take 4 := fun x => by
    rw [List.take_append_of_le_length h4]
  unfold optLine at h
  by_cases h1 : n = npos
  · by_cases h2 : n' = npos
    · rw [if_neg (by simp [h1]), if_neg (by simp [h2])] at h
      exact ⟨by rw [h1, h2], by simpa using h⟩
    · rw [if_neg (by simp [h1]), if_pos h2, List.nil_append] at h
      exfalso
      apply hr
      rw [h]
      simp only [List.append_assoc]
      exact htake _
  · by_cases h2 : n' = npos
    · rw [if_pos h1, if_neg (by simp [h2]), List.nil_append] at h
      exfalso
      apply hr'
      rw [← h]
      simp only [List.append_assoc]
      exact htake _
    · rw [if_pos h1, if_pos h2, List.append_assoc, List.append_assoc (word ++ [32] ++ numText 10 n')] at h
      have nl : ∀ n, 10 ∉ word ++ [32] ++ numText 10 n := fun n => by
        simp only [List.mem_append, not_or]
        exact ⟨⟨h10, by decide⟩, num_no (by omega) n⟩
      have h3 := sep_inj (nl n) (nl n') h
      exact ⟨(cut h3.1).2, h3.2⟩

theorem bol_eq (c : Prop) [Decidable c] (npos bol : Nat) : (if c ∧ bol ≠ npos then chars "  BOL -> " ++ numText 10 bol ++ [10] else []) =
    if c then optLine (chars "  BOL ->") npos bol else [] := by
  unfold optLine
  have e : chars "  BOL -> " = chars "  BOL ->" ++ [32] := by decide
  by_cases h : c
  · simp only [h, true_and, if_true, e]
  · simp only [h, false_and, if_false]

theorem eol_eq (npos eol : Nat) : (if eol ≠ npos then chars "  EOL -> " ++ numText 10 eol ++ [10] else []) =
    optLine (chars "  EOL ->") npos eol := by
  unfold optLine
  have e : chars "  EOL -> " = chars "  EOL ->" ++ [32] := by decide
  rw [e]

/-- What is printed of a state after its number. -/
theorem state_inj {max npos : Nat} (h1 : 127 ≤ max) (h2 : max < 2 ^ 64) {s s' : CState} {bol bol' i : Nat} {w w' r r' : List Nat}
    (hs : ∀ p ∈ s.transitions, SetOk max p.2 ∧ Clear max p.2) (hs' : ∀ p ∈ s'.transitions, SetOk max p.2 ∧ Clear max p.2)
    (hw : dumpTransitions max 16 s.transitions = .ok w) (hw' : dumpTransitions max 16 s'.transitions = .ok w')
    (h : dumpEnd s ++ ((if i = 0 then optLine (chars "  BOL ->") npos bol else []) ++ (optLine (chars "  EOL ->") npos s.eolIndex ++ (w ++ 10 :: r))) =
      dumpEnd s' ++ ((if i = 0 then optLine (chars "  BOL ->") npos bol' else []) ++ (optLine (chars "  EOL ->") npos s'.eolIndex ++ (w' ++ 10 :: r')))) :
    ShownAlike s s' ∧ (i = 0 → bol = bol') ∧ r = r' := by
  have o : Other (w ++ 10 :: r) := other_trans h1 hw
  have o' : Other (w' ++ 10 :: r') := other_trans h1 hw'
  have oe : ∀ {n : Nat} {x : List Nat}, Other x → (optLine (chars "  EOL ->") npos n ++ x).take 4 ∉ [chars "  EN", chars "  BO"] := by
    intro n x hx
    unfold optLine
    split
    · simp [chars]
    · rw [List.nil_append]
      intro h
      apply hx
      simp only [List.mem_cons, List.not_mem_nil, or_false] at h ⊢
      rcases h with h | h
      · exact .inl h
      · exact .inr (.inl h)
  have ob : ∀ {n m : Nat} {x : List Nat}, Other x →
      ((if i = 0 then optLine (chars "  BOL ->") npos m else []) ++ (optLine (chars "  EOL ->") npos n ++ x)).take 4 ≠ chars "  EN" := by
    intro n m x hx
    by_cases hi : i = 0
    · rw [if_pos hi]
      unfold optLine
      by_cases hm : m ≠ npos
      · rw [if_pos hm]; simp [chars]
      · rw [if_neg hm, List.nil_append]
        intro h
        exact oe (n := n) hx (by unfold optLine; rw [h]; simp)
    · rw [if_neg hi, List.nil_append]
      intro h
      exact oe (n := n) hx (by rw [h]; simp)
  -- the line of an end state
  have hend : s.endState = s'.endState ∧ (s.endState = true → endLine s = endLine s') ∧
      (if i = 0 then optLine (chars "  BOL ->") npos bol else []) ++ (optLine (chars "  EOL ->") npos s.eolIndex ++ (w ++ 10 :: r)) =
      (if i = 0 then optLine (chars "  BOL ->") npos bol' else []) ++ (optLine (chars "  EOL ->") npos s'.eolIndex ++ (w' ++ 10 :: r')) := by
    rw [dumpEnd_eq, dumpEnd_eq] at h
    have ht : ∀ (s : CState) (x : List Nat), (endLine s ++ x).take 4 = chars "  EN" := fun s x => by
      unfold endLine; simp [chars]
    cases he : s.endState <;> cases he' : s'.endState
    · rw [he, he'] at h
      exact ⟨rfl, by simp, by simpa using h⟩
    · rw [he, he'] at h
      exfalso
      simp only [Bool.false_eq_true, if_false, if_true, List.nil_append] at h
      apply ob (n := s.eolIndex) (m := bol) o
      rw [h, List.append_assoc, ht]
    · rw [he, he'] at h
      exfalso
      simp only [Bool.false_eq_true, if_false, if_true, List.nil_append] at h
      apply ob (n := s'.eolIndex) (m := bol') o'
      rw [← h, List.append_assoc, ht]
    · rw [he, he'] at h
      simp only [if_true, List.append_assoc, List.singleton_append] at h
      have := sep_inj (endLine_no s) (endLine_no s') h
      exact ⟨rfl, fun _ => this.1, by simpa using this.2⟩
  obtain ⟨k1, k2, h⟩ := hend
  -- the line for the start of a line
  have hbol : (i = 0 → bol = bol') ∧
      optLine (chars "  EOL ->") npos s.eolIndex ++ (w ++ 10 :: r) = optLine (chars "  EOL ->") npos s'.eolIndex ++ (w' ++ 10 :: r') := by
    by_cases hi : i = 0
    · rw [if_pos hi, if_pos hi] at h
      have e : (chars "  BOL ->").take 4 = chars "  BO" := by decide
      have := optLine_inj (by decide) (by decide) (by rw [e]; intro h; exact oe (n := s.eolIndex) o (by rw [h]; simp))
        (by rw [e]; intro h; exact oe (n := s'.eolIndex) o' (by rw [h]; simp)) h
      exact ⟨fun _ => this.1, this.2⟩
    · rw [if_neg hi, if_neg hi] at h
      exact ⟨fun h => absurd h hi, by simpa using h⟩
  obtain ⟨k3, h⟩ := hbol
  have e : (chars "  EOL ->").take 4 = chars "  EO" := by decide
  have heol := optLine_inj (by decide) (by decide) (by rw [e]; intro h; exact o (by rw [h]; simp))
    (by rw [e]; intro h; exact o' (by rw [h]; simp)) h
  have htr := trans_inj h1 h2 hs hs' hw hw' heol.2
  exact ⟨⟨k1, fun h => endLine_inj (k2 h), heol.1, htr.1⟩, k3, htr.2⟩

theorem states_inj {max npos : Nat} (h1 : 127 ≤ max) (h2 : max < 2 ^ 64) {bol bol' : Nat} : ∀ {ss ss' : List CState} {i : Nat} {w w' r r' : List Nat},
    (∀ s ∈ ss, ∀ p ∈ s.transitions, SetOk max p.2 ∧ Clear max p.2) → (∀ s ∈ ss', ∀ p ∈ s.transitions, SetOk max p.2 ∧ Clear max p.2) →
    dumpStates max 16 npos bol i ss = .ok w → dumpStates max 16 npos bol' i ss' = .ok w' → r.head? ≠ some 83 → r'.head? ≠ some 83 →
    w ++ r = w' ++ r' → Pointwise ShownAlike ss ss' ∧ (i = 0 → ss ≠ [] → bol = bol') ∧ r = r' := by
  have block : ∀ {bol i : Nat} {s : CState} {ss : List CState} {w : List Nat}, dumpStates max 16 npos bol i (s :: ss) = .ok w →
      ∃ t v : List Nat, dumpTransitions max 16 s.transitions = .ok t ∧ dumpStates max 16 npos bol (i + 1) ss = .ok v ∧
        ∀ r, w ++ r = (chars "State: " ++ numText 10 i ++ [10]) ++ (dumpEnd s ++ ((if i = 0 then optLine (chars "  BOL ->") npos bol else []) ++
          (optLine (chars "  EOL ->") npos s.eolIndex ++ (t ++ 10 :: (v ++ r))))) := by
    intro bol i s ss w h
    simp only [dumpStates] at h
    cases ht : dumpTransitions max 16 s.transitions with
    | error e => rw [ht] at h; simp [bind, Except.bind] at h
    | ok t =>
      rw [ht] at h
      simp only [bind, Except.bind] at h
      cases hv : dumpStates max 16 npos bol (i + 1) ss with
      | error e => rw [hv] at h; simp at h
      | ok v =>
        rw [hv] at h
        simp only at h
        injection h with h
        refine ⟨t, v, rfl, rfl, fun r => ?_⟩
        rw [← h, bol_eq, eol_eq]
        simp only [List.append_assoc, List.singleton_append]
        simp
  have head : ∀ {bol i : Nat} {s : CState} {ss : List CState} {w : List Nat} (r : List Nat), dumpStates max 16 npos bol i (s :: ss) = .ok w →
      (w ++ r).head? = some 83 := by
    intro bol i s ss w r h
    obtain ⟨t, v, _, _, e⟩ := block h
    rw [e r]
    simp [chars]
  intro ss
  induction ss with
  | nil =>
    intro ss' i w w' r r' _ _ hw hw' hr hr' h
    simp only [dumpStates] at hw
    injection hw with hw
    subst hw
    cases ss' with
    | nil =>
      simp only [dumpStates] at hw'
      injection hw' with hw'
      subst hw'
      exact ⟨.nil, by simp, by simpa using h⟩
    | cons s' ss' =>
      exfalso
      rw [List.nil_append] at h
      rw [h] at hr
      exact hr (head r' hw')
  | cons s ss ih =>
    intro ss' i w w' r r' hc hc' hw hw' hr hr' h
    cases ss' with
    | nil =>
      simp only [dumpStates] at hw'
      injection hw' with hw'
      subst hw'
      exfalso
      rw [List.nil_append] at h
      rw [← h] at hr'
      exact hr' (head r hw)
    | cons s' ss' =>
      obtain ⟨t, v, g1, g2, e⟩ := block hw
      obtain ⟨t', v', g1', g2', e'⟩ := block hw'
      rw [e r, e' r'] at h
      have h3 := List.append_cancel_left h
      obtain ⟨k1, k2, k3⟩ := state_inj h1 h2 (hc s (by simp)) (hc' s' (by simp)) g1 g1' h3
      obtain ⟨k4, _, k5⟩ := ih (fun q hq => hc q (by simp [hq])) (fun q hq => hc' q (by simp [hq])) g2 g2' hr hr' k3
      exact ⟨.cons _ _ _ _ k1 k4, fun hi _ => k2 hi, k5⟩

/-! ### Machines -/

theorem dfas_inj {max npos : Nat} (h1 : 127 ≤ max) (h2 : max < 2 ^ 64) {name : Nat → M (List Nat)} : ∀ {m m' : List CDfa} {i : Nat} {w : List Nat},
    ClearMachine max m → ClearMachine max m' → dumpDfas max 16 npos name i m = .ok w → dumpDfas max 16 npos name i m' = .ok w →
    Pointwise PrintedAlike m m' := by
  have block : ∀ {i : Nat} {d : CDfa} {m : List CDfa} {w : List Nat}, dumpDfas max 16 npos name i (d :: m) = .ok w →
      ∃ n t v : List Nat, name i = .ok n ∧ dumpStates max 16 npos d.bol 0 d.states = .ok t ∧ dumpDfas max 16 npos name (i + 1) m = .ok v ∧
        w = (chars "Lexer state: " ++ n ++ [10, 10]) ++ (t ++ v) := by
    intro i d m w h
    simp only [dumpDfas] at h
    cases hn : name i with
    | error e => rw [hn] at h; simp [bind, Except.bind] at h
    | ok n =>
      rw [hn] at h
      simp only [bind, Except.bind] at h
      cases ht : dumpStates max 16 npos d.bol 0 d.states with
      | error e => rw [ht] at h; simp at h
      | ok t =>
        rw [ht] at h
        simp only at h
        cases hv : dumpDfas max 16 npos name (i + 1) m with
        | error e => rw [hv] at h; simp at h
        | ok v =>
          rw [hv] at h
          simp only at h
          injection h with h
          exact ⟨n, t, v, rfl, rfl, rfl, by rw [← h]; simp⟩
  have head : ∀ {m : List CDfa} {i : Nat} {w : List Nat}, dumpDfas max 16 npos name i m = .ok w → w.head? ≠ some 83 := by
    intro m i w h
    cases m with
    | nil =>
      simp only [dumpDfas] at h
      injection h with h
      subst h
      simp
    | cons d m =>
      obtain ⟨n, t, v, _, _, _, e⟩ := block h
      rw [e]
      simp [chars]
  intro m
  induction m with
  | nil =>
    intro m' i w _ _ hw hw'
    simp only [dumpDfas] at hw
    injection hw with hw
    subst hw
    cases m' with
    | nil => exact .nil
    | cons d m' =>
      obtain ⟨n, t, v, _, _, _, e⟩ := block hw'
      simp [chars] at e
  | cons d m ih =>
    intro m' i w hc hc' hw hw'
    obtain ⟨n, t, v, g0, g1, g2, e⟩ := block hw
    cases m' with
    | nil =>
      simp only [dumpDfas] at hw'
      injection hw' with hw'
      rw [← hw'] at e
      simp [chars] at e
    | cons d' m' =>
      obtain ⟨n', t', v', g0', g1', g2', e'⟩ := block hw'
      rw [g0] at g0'
      injection g0' with g0'
      subst g0'
      rw [e] at e'
      have h3 := List.append_cancel_left e'
      obtain ⟨k1, k2, k3⟩ := states_inj h1 h2 (hc d (by simp)) (hc' d' (by simp)) g1 g1' (head g2) (head g2') h3
      subst k3
      exact .cons _ _ _ _ ⟨k1, k2 rfl⟩ (ih (fun q hq => hc q (by simp [hq])) (fun q hq => hc' q (by simp [hq])) g2 g2')

/-- Clear machines are printed. -/
theorem dump_ok {max npos : Nat} (h1 : 127 ≤ max) {m : List CDfa} (hc : ClearMachine max m) : ∀ {name : Nat → M (List Nat)} {i : Nat},
    (∀ i, ∃ n, name i = .ok n) → ∃ w, dumpDfas max 16 npos name i m = .ok w := by
  have trans : ∀ (tr : List (Nat × Token)), (∀ p ∈ tr, SetOk max p.2 ∧ Clear max p.2) → ∃ w, dumpTransitions max 16 tr = .ok w := by
    intro tr
    induction tr with
    | nil => intro _; exact ⟨_, rfl⟩
    | cons p tr ih =>
      intro h
      obtain ⟨k, t⟩ := p
      obtain ⟨s, e1, _⟩ := charset_means (E := envOf max) h1 (h (k, t) (by simp)).1 (h (k, t) (by simp)).2
      obtain ⟨v, e2⟩ := ih (fun p hp => h p (by simp [hp]))
      have e1 : dumpCharset max 16 t = .ok s := e1
      exact ⟨_, by simp only [dumpTransitions, e1, e2]; rfl⟩
  have states : ∀ (bol : Nat) (ss : List CState) (i : Nat), (∀ s ∈ ss, ∀ p ∈ s.transitions, SetOk max p.2 ∧ Clear max p.2) →
      ∃ w, dumpStates max 16 npos bol i ss = .ok w := by
    intro bol ss
    induction ss with
    | nil => intro i _; exact ⟨_, rfl⟩
    | cons s ss ih =>
      intro i h
      obtain ⟨t, e1⟩ := trans s.transitions (h s (by simp))
      obtain ⟨v, e2⟩ := ih (i + 1) (fun q hq => h q (by simp [hq]))
      exact ⟨_, by simp only [dumpStates, e1, e2]; rfl⟩
  induction m with
  | nil => intro name i _; exact ⟨_, rfl⟩
  | cons d m ih =>
    intro name i hn
    obtain ⟨n, e0⟩ := hn i
    obtain ⟨t, e1⟩ := states d.bol d.states 0 (hc d (by simp))
    obtain ⟨v, e2⟩ := ih (fun q hq => hc q (by simp [hq])) (name := name) (i := i + 1) hn
    exact ⟨_, by simp only [dumpDfas, e0, e1, e2]; rfl⟩

end Lexertl.Dump
