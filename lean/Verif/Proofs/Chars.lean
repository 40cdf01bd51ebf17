import Verif.Spec.Reads
import Verif.Proofs.Tokeniser

/-
Texts of characters and charsets are read as `Verif.Spec.Reads` says.
-/
namespace Lexertl.Reading
open Spec

/-! ### Case -/

theorem foldOne_mem {E : TokEnv} (hE : TokEnvOk E) {r : Range} (hr : r.2 ≤ E.max) (x : Nat) :
    Mem x (foldOne E r) ↔ ∃ c, (r.1 ≤ c ∧ c ≤ r.2) ∧ ((E.upper c ≠ c ∧ x = E.upper c) ∨ (E.lower c ≠ c ∧ x = E.lower c)) := by
  unfold foldOne
  suffices ∀ (l : List Nat) (out : Token), (∀ c ∈ l, c ≤ E.max) → Cs E.max out → (Mem x (l.foldl (fun (out : Token) c =>
      let out : Token := if E.upper c ≠ c then out.insert (E.upper c, E.upper c) else out
      if E.lower c ≠ c then out.insert (E.lower c, E.lower c) else out) out) ↔ Mem x out ∨
        ∃ c ∈ l, ((E.upper c ≠ c ∧ x = E.upper c) ∨ (E.lower c ≠ c ∧ x = E.lower c))) by
    rw [this _ _ (fun c hc => ?_) Cs.nil]
    · simp only [Token.mem_nil, false_or, List.mem_range'_1]
      refine exists_congr fun c => and_congr_left' ?_
      omega
    · rw [List.mem_range'_1] at hc
      omega
  intro l
  induction l with
  | nil => intro out _ h; simp
  | cons c l ih =>
    intro out hl h
    have hc := hl c (by simp)
    have h1 : Cs E.max (if E.upper c ≠ c then out.insert (E.upper c, E.upper c) else out) := by
      split
      · exact h.insert (Nat.le_refl _) (hE.upper c hc)
      · exact h
    have m1 : Mem x (if E.upper c ≠ c then out.insert (E.upper c, E.upper c) else out) ↔
        Mem x out ∨ (E.upper c ≠ c ∧ x = E.upper c) := by
      split
      · rename_i hne
        rw [Token.mem_insert out _ h.normal (Nat.le_refl _)]
        simp only [hne, ne_eq, not_false_eq_true, true_and]
        refine or_congr_right ?_
        omega
      · rename_i hne
        simp [hne]
    generalize hg : (if E.upper c ≠ c then out.insert (E.upper c, E.upper c) else out) = o1 at h1 m1
    have h2 : Cs E.max (if E.lower c ≠ c then o1.insert (E.lower c, E.lower c) else o1) := by
      split
      · exact h1.insert (Nat.le_refl _) (hE.lower c hc)
      · exact h1
    have m2 : Mem x (if E.lower c ≠ c then o1.insert (E.lower c, E.lower c) else o1) ↔
        Mem x o1 ∨ (E.lower c ≠ c ∧ x = E.lower c) := by
      split
      · rename_i hne
        rw [Token.mem_insert o1 _ h1.normal (Nat.le_refl _)]
        simp only [hne, ne_eq, not_false_eq_true, true_and]
        refine or_congr_right ?_
        omega
      · rename_i hne
        simp [hne]
    rw [List.foldl_cons]
    dsimp only
    rw [hg, ih _ (fun d hd => hl d (by simp [hd])) h2, m2, m1]
    simp only [List.mem_cons, exists_eq_or_imp, or_assoc]

/-- A line of a table, applied to a range. -/
def LineOn (r : Range) (p : FoldPair) (x : Nat) : Prop := ∃ c, (r.1 ≤ c ∧ c ≤ r.2) ∧ FoldLine p c x

theorem foldOk_of {top : Nat} {p : FoldPair} (h : p.1.1 ≤ p.1.2 ∧ max p.2.1 p.2.2 - min p.2.1 p.2.2 = p.1.2 - p.1.1 ∧
    max p.2.1 p.2.2 ≤ top) : FoldOk top p := by
  unfold FoldOk
  split <;> omega

theorem foldTwo_mem {top : Nat} {r : Range} (hr : r.1 ≤ r.2) (x : Nat) : ∀ (ps : List FoldPair) (out : Token),
    FoldTable top ps → Cs top out → (Mem x (foldTwo r ps out) ↔ Mem x out ∨ ∃ p ∈ ps, LineOn r p x)
  | [], out, _, _ => by simp [foldTwo]
  | ((f1, f2), (t1, t2)) :: ps, out, hp, h => by
    have hq := hp.length _ (List.mem_cons_self ..)
    have hs := (List.pairwise_cons.1 hp.sorted)
    have ih := fun o => foldTwo_mem (top := top) hr x ps o ⟨hs.2, fun p hm => hp.length p (by simp [hm])⟩
    dsimp only at hq hs
    have line : ∀ lo, lo = min t1 t2 → (LineOn r ((f1, f2), (t1, t2)) x ↔ ∃ c, (r.1 ≤ c ∧ c ≤ r.2) ∧ f1 ≤ c ∧ c ≤ f2 ∧ x = lo + (c - f1)) := by
      rintro _ rfl; exact Iff.rfl
    simp only [List.mem_cons, exists_eq_or_imp]
    unfold foldTwo
    split
    · rename_i hlt
      constructor
      · exact .inl
      · rintro (h | ⟨c, h1, h2, h3, _⟩ | ⟨p, hp', c, h1, h2, h3, _⟩)
        · exact h
        · dsimp only at h2; omega
        · have := hs.1 p hp'; omega
    · rename_i hlt
      generalize he : (if t1 ≤ t2 then (t1, t2) else (t2, t1)) = e
      obtain ⟨lo, hi⟩ := e
      have hlo : lo = min t1 t2 ∧ hi = max t1 t2 := by
        split at he <;> cases he <;> omega
      obtain ⟨hlo, hhi⟩ := hlo
      rw [line lo hlo]
      dsimp only
      have hlen : hi - lo = f2 - f1 := by omega
      have hle : lo ≤ hi := by omega
      have htop : hi ≤ top := by omega
      split
      · rename_i hc
        rw [ih _ (h.insert (by dsimp only; split <;> omega) (by dsimp only; split <;> omega)),
          Token.mem_insert out _ h.normal (by dsimp only; split <;> omega), or_assoc]
        refine or_congr_right (or_congr_left ?_)
        dsimp only
        constructor
        · intro hx
          refine ⟨x - lo + f1, ?_⟩
          split at hx <;> omega
        · rintro ⟨c, h1, h2, h3, rfl⟩
          split <;> omega
      split
      · rename_i hc
        rw [ih _ (h.insert (by dsimp only; omega) (by dsimp only; omega)),
          Token.mem_insert out _ h.normal (by dsimp only; omega), or_assoc]
        refine or_congr_right (or_congr_left ?_)
        dsimp only
        constructor
        · intro hx
          exact ⟨x - lo + f1, by omega, by omega, by omega, by omega⟩
        · rintro ⟨c, h1, h2, h3, rfl⟩
          omega
      split
      · rename_i hc
        rw [ih _ (h.insert (by dsimp only; omega) (by dsimp only; omega)),
          Token.mem_insert out _ h.normal (by dsimp only; omega), or_assoc]
        refine or_congr_right (or_congr_left ?_)
        dsimp only
        constructor
        · intro hx
          exact ⟨x - lo + f1, by omega, by omega, by omega, by omega⟩
        · rintro ⟨c, h1, h2, h3, rfl⟩
          omega
      · rw [ih _ h]
        refine or_congr_right ⟨.inr, ?_⟩
        rintro (⟨c, h1, h2, h3, _⟩ | h)
        · omega
        · exact h

theorem foldFour_eq {r : Range} (hr : r.1 ≤ r.2) : ∀ (ps : List FoldPair) (out : Token), (∀ p ∈ ps, p.2.1 ≤ p.2.2) →
    foldFour r ps out = foldTwo r ps out
  | [], out, _ => rfl
  | ((f1, f2), (t1, t2)) :: ps, out, hp => by
    have hq : t1 ≤ t2 := hp _ (List.mem_cons_self ..)
    have ih := fun o => foldFour_eq hr ps o (fun p hm => hp p (by simp [hm]))
    unfold foldFour foldTwo
    simp only [hq, if_true, ih]

theorem foldRange_mem {E : TokEnv} (hE : TokEnvOk E) (hC : CharsOk E) {r : Range} (hr : r.1 ≤ r.2) (hm : r.2 ≤ E.max)
    (x : Nat) : Mem x (foldRange E r) ∨ (r.1 ≤ x ∧ x ≤ r.2) ↔ (∃ c, (r.1 ≤ c ∧ c ≤ r.2) ∧ OtherCase E c x) ∨ (r.1 ≤ x ∧ x ≤ r.2) := by
  unfold foldRange OtherCase
  split
  · rw [foldOne_mem hE hm]
    constructor
    · rintro (⟨c, h1, h2⟩ | h)
      · refine .inl ⟨c, h1, ?_⟩
        rcases h2 with ⟨_, h2⟩ | ⟨_, h2⟩
        · exact .inl h2
        · exact .inr h2
      · exact .inr h
    · rintro (⟨c, h1, h2⟩ | h)
      · by_cases hx : x = c
        · subst hx; exact .inr h1
        · refine .inl ⟨c, h1, ?_⟩
          rcases h2 with h2 | h2
          · exact .inl ⟨fun e => hx (h2.trans e), h2⟩
          · exact .inr ⟨fun e => hx (h2.trans e), h2⟩
      · exact .inr h
  · refine or_congr_left ?_
    have two : ∀ out, Cs E.max out → (Mem x (foldTwo r E.fold2 out) ↔ Mem x out ∨ ∃ p ∈ E.fold2, LineOn r p x) :=
      fun out ho => foldTwo_mem hr x _ out hC.fold2 ho
    split
    · rename_i h2
      rw [two _ Cs.nil]
      simp only [Token.mem_nil, false_or, h2, ne_eq, not_true_eq_false, false_and, or_false]
      constructor
      · rintro ⟨p, hp, c, h1, h2⟩; exact ⟨c, h1, p, hp, h2⟩
      · rintro ⟨c, h1, p, hp, h2⟩; exact ⟨p, hp, c, h1, h2⟩
    · rename_i h2
      rw [foldFour_eq hr _ _ hC.up4, foldTwo_mem hr x _ _ hC.fold4 (by
        split
        · exact foldTwo_cs hr _ _ (fun p hp => foldOk_of (hC.fold2.length p hp)) Cs.nil
        · exact Cs.nil)]
      have : Mem x (if r.1 < 0x10000 then foldTwo r E.fold2 [] else []) ↔ ∃ p ∈ E.fold2, LineOn r p x := by
        split
        · rw [two _ Cs.nil]
          simp only [Token.mem_nil, false_or]
        · rename_i hlt
          constructor
          · intro h; exact (Token.mem_nil _ h).elim
          · rintro ⟨p, hp, c, h1, h2, h3, _⟩
            have := hC.first2 p hp
            omega
      rw [this]
      simp only [ne_eq, h2, not_false_eq_true, true_and]
      constructor
      · rintro (⟨p, hp, c, h1, h2⟩ | ⟨p, hp, c, h1, h2⟩)
        · exact ⟨c, h1, .inl ⟨p, hp, h2⟩⟩
        · exact ⟨c, h1, .inr ⟨p, hp, h2⟩⟩
      · rintro ⟨c, h1, ⟨p, hp, h2⟩ | ⟨p, hp, h2⟩⟩
        · exact .inl ⟨p, hp, c, h1, h2⟩
        · exact .inr ⟨p, hp, c, h1, h2⟩

theorem mem_addRange {E : TokEnv} (hE : TokEnvOk E) (hC : CharsOk E) (ic : Bool) {r : Range} (hr : r.1 ≤ r.2) (hm : r.2 ≤ E.max)
    {t : Token} (h : Cs E.max t) (x : Nat) :
    Mem x (addRange E ic r t) ↔ Mem x t ∨ Closed E ic (fun c => r.1 ≤ c ∧ c ≤ r.2) x := by
  unfold addRange Closed
  dsimp only
  cases ic with
  | false =>
    simp only [Bool.false_eq_true, if_false, false_and, or_false]
    rw [Token.mem_insert t r h.normal hr]
  | true =>
    simp only [if_true, true_and]
    rw [(Token.insertToken_spec _ _ (h.insert hr hm).normal (foldRange_cs hE hr hm).normal.1).2 x,
      Token.mem_insert t r h.normal hr, or_assoc]
    refine or_congr_right ?_
    rw [or_comm, foldRange_mem hE hC hr hm, or_comm]

/-! ### Escapes -/

theorem isOctal_iff (c : Nat) : isOctal c = true ↔ IsOct c := by
  unfold isOctal IsOct
  simp only [Bool.and_eq_true, decide_eq_true_eq]

theorem octalLoop_eq {n acc : Nat} {ds rest : List Nat} (hl : ds.length ≤ n) (hd : ∀ d ∈ ds, IsOct d)
    (hr : ds.length < n → ∀ d ∈ rest.head?, ¬ IsOct d) :
    octalLoop n acc (ds ++ rest) = (ds.foldl (fun n d => n * 8 + (d - 48)) acc, rest) := by
  induction ds generalizing n acc with
  | nil =>
    cases n with
    | zero => rfl
    | succ n =>
      cases rest with
      | nil => rfl
      | cons c rest =>
        have := hr (by simp) c (by simp)
        simp only [List.nil_append, octalLoop, List.foldl_nil]
        rw [if_neg (fun h => this ((isOctal_iff c).1 h))]
  | cons d ds ih =>
    cases n with
    | zero => simp at hl
    | succ n =>
      have h1 := hd d (by simp)
      simp only [List.length_cons] at hl hr
      simp only [List.cons_append, octalLoop, List.foldl_cons]
      rw [if_pos ((isOctal_iff d).2 h1), ih (by omega) (fun e he => hd e (by simp [he])) (fun h => hr (by omega))]

theorem hex_le (ds : List Nat) (acc : Nat) :
    acc ≤ ds.foldl (fun n d => n * 16 + (if d ≤ 57 then d - 48 else if d ≤ 70 then d - 55 else d - 87)) acc := by
  induction ds generalizing acc with
  | nil => exact Nat.le_refl _
  | cons d ds ih =>
    rw [List.foldl_cons]
    exact Nat.le_trans (by omega) (ih _)

theorem isHex_iff (c : Nat) : isHex c = true ↔ IsHexDigit c := by
  unfold isHex IsHexDigit
  simp only [Bool.or_eq_true, Bool.and_eq_true, decide_eq_true_eq]
  omega

theorem hexValue_eq {c : Nat} (h : IsHexDigit c) : hexValue c = if c ≤ 57 then c - 48 else if c ≤ 70 then c - 55 else c - 87 := by
  unfold hexValue
  unfold IsHexDigit at h
  split
  · rfl
  · split <;> split <;> omega

theorem hexLoop_eq {acc : Nat} {ds rest : List Nat} (hd : ∀ d ∈ ds, IsHexDigit d) (hr : ∀ d ∈ rest.head?, ¬ IsHexDigit d)
    (hs : ds.foldl (fun n d => n * 16 + (if d ≤ 57 then d - 48 else if d ≤ 70 then d - 55 else d - 87)) acc < 2 ^ 64) :
    hexLoop acc (ds ++ rest) =
      (ds.foldl (fun n d => n * 16 + (if d ≤ 57 then d - 48 else if d ≤ 70 then d - 55 else d - 87)) acc, rest) := by
  induction ds generalizing acc with
  | nil =>
    cases rest with
    | nil => rfl
    | cons c rest =>
      have := hr c (by simp)
      rw [← isHex_iff] at this
      simp only [List.nil_append, hexLoop, List.foldl_nil]
      rw [if_neg this]
  | cons d ds ih =>
    have h1 := hd d (by simp)
    rw [List.foldl_cons] at hs ⊢
    simp only [List.cons_append, hexLoop]
    rw [if_pos ((isHex_iff d).2 h1), hexValue_eq h1, Nat.mod_eq_of_lt (Nat.lt_of_le_of_lt (hex_le _ _) hs),
      ih (fun e he => hd e (by simp [he])) hs]

theorem escChar_ok {E : TokEnv} (hs : E.max < 2 ^ 64) {w rest : List Nat} {c : Nat} (h : EscChar E.max w c rest) :
    escChar E (w ++ rest) = .ok (c, rest) ∧ shortcut E (w ++ rest) = .ok (none, w ++ rest) ∧ w ≠ [] := by
  cases h with
  | octal _ _ h1 h2 h3 h4 h5 =>
    cases w with
    | nil => exact absurd rfl h1
    | cons d ds =>
      have hd := h3 d (by simp)
      simp only [List.length_cons] at h2 h4
      refine ⟨?_, ?_, by simp⟩
      · simp only [List.cons_append, escChar]
        rw [if_pos ((isOctal_iff d).2 hd), decodeOctal,
          octalLoop_eq (by omega) (fun e he => h3 e (by simp [he])) (fun h => h4 (by omega))]
        simp only [octVal, List.foldl_cons, Nat.zero_mul, Nat.zero_add] at h5 ⊢
        rw [if_neg (by omega)]
      · unfold IsOct at hd
        simp only [List.cons_append, shortcut]
        rw [if_neg (by omega), if_neg (by omega), if_neg (by omega), if_neg (by omega), if_neg (by omega), if_neg (by omega), if_neg (by omega)]
  | hex ds _ h1 h2 h3 h4 =>
    cases ds with
    | nil => exact absurd rfl h1
    | cons d ds =>
      have hd := h2 d (by simp)
      refine ⟨?_, ?_, by simp⟩
      · simp only [hexVal, List.foldl_cons, Nat.zero_mul, Nat.zero_add, List.cons_append] at h4 ⊢
        have : escChar E (120 :: d :: (ds ++ rest)) = decodeHex E (d :: (ds ++ rest)) := rfl
        rw [this, decodeHex, if_pos ((isHex_iff d).2 hd), hexValue_eq hd,
          hexLoop_eq (fun e he => h2 e (by simp [he])) h3 (by omega)]
        simp only
        rw [if_neg (by omega)]
      · rfl
  | ctrlLower c _ h1 h2 =>
    refine ⟨?_, rfl, by simp⟩
    show decodeControl (c :: rest) = _
    rw [decodeControl, if_pos ⟨h1, h2⟩]
  | ctrlUpper c _ h1 h2 =>
    refine ⟨?_, rfl, by simp⟩
    show decodeControl (c :: rest) = _
    rw [decodeControl, if_neg (by omega)]
    split
    · rfl
    · rw [if_pos (by omega)]
      congr 2
      omega
  | named c v _ h =>
    refine ⟨?_, ?_, by simp⟩
    all_goals
      simp only [namedEscapes, List.mem_cons, Prod.mk.injEq, List.not_mem_nil, or_false] at h
      rcases h with ⟨rfl, rfl⟩ | ⟨rfl, rfl⟩ | ⟨rfl, rfl⟩ | ⟨rfl, rfl⟩ | ⟨rfl, rfl⟩ | ⟨rfl, rfl⟩ | ⟨rfl, rfl⟩ | ⟨rfl, rfl⟩ <;> rfl
  | self c _ h1 h2 h3 =>
    simp only [namedEscapes, List.map_cons, List.map_nil, List.mem_cons, List.not_mem_nil, or_false, not_or] at h2 h3
    refine ⟨?_, ?_, by simp⟩
    · simp only [List.cons_append, List.nil_append, escChar]
      rw [if_neg (fun h => h1 ((isOctal_iff c).1 h)), if_neg (by omega), if_neg (by omega), if_neg (by omega), if_neg (by omega), if_neg (by omega),
        if_neg (by omega), if_neg (by omega), if_neg (by omega), if_neg (by omega), if_neg (by omega)]
    · simp only [List.cons_append, List.nil_append, shortcut]
      rw [if_neg (by omega), if_neg (by omega), if_neg (by omega), if_neg (by omega), if_neg (by omega), if_neg (by omega), if_neg (by omega)]

theorem escapeSeq_char {E : TokEnv} (hs : E.max < 2 ^ 64) {w rest : List Nat} {c : Nat} (h : EscChar E.max w c rest) :
    escapeSeq E (w ++ rest) = .ok (.char c, rest) := by
  obtain ⟨h1, h2, h3⟩ := escChar_ok hs h
  unfold escapeSeq
  rw [if_neg (by simp [h3]), h2]
  simp only [bind, Except.bind]
  rw [h1]

/-- The character an escape stands for exists, if the text does. -/
theorem escChar_le {E : TokEnv} (hE : TokEnvOk E) {w rest : List Nat} {c : Nat} (h : EscChar E.max w c rest)
    (ht : ∀ d ∈ w, d ≤ E.max) : c ≤ E.max := by
  have := hE.big
  cases h with
  | octal _ _ _ _ _ _ h => exact h
  | hex _ _ _ _ _ h => exact h
  | ctrlLower c _ h1 h2 => omega
  | ctrlUpper c _ h1 h2 => omega
  | named c v _ h =>
    simp only [namedEscapes, List.mem_cons, Prod.mk.injEq, List.not_mem_nil, or_false] at h
    omega
  | self c _ _ _ _ => exact ht c (by simp)

/-- Only the next character matters. -/
theorem escChar_append {max : Nat} {w rest : List Nat} {c : Nat} (h : EscChar max w c rest) (hr : rest ≠ []) (out : List Nat) :
    EscChar max w c (rest ++ out) := by
  have e : (rest ++ out).head? = rest.head? := by
    cases rest with
    | nil => exact absurd rfl hr
    | cons a b => rfl
  cases h with
  | octal _ _ h1 h2 h3 h4 h5 => exact .octal _ _ h1 h2 h3 (by rw [e]; exact h4) h5
  | hex ds _ h1 h2 h3 h4 => exact .hex ds _ h1 h2 (by rw [e]; exact h3) h4
  | ctrlLower c _ h1 h2 => exact .ctrlLower c _ h1 h2
  | ctrlUpper c _ h1 h2 => exact .ctrlUpper c _ h1 h2
  | named c _ _ h => exact .named c _ _ h
  | self c _ h1 h2 h3 => exact .self c _ h1 h2 h3

theorem chr_append {max : Nat} {w rest : List Nat} {c : Nat} (h : Chr max w c rest) (hr : rest ≠ []) (out : List Nat) :
    Chr max w c (rest ++ out) := by
  cases h with
  | esc w _ _ h => exact .esc w _ _ (escChar_append h hr out)
  | self c _ h1 h2 =>
    refine .self c _ h1 ?_
    cases rest with
    | nil => exact absurd rfl hr
    | cons a b => exact h2

theorem chr_le {E : TokEnv} (hE : TokEnvOk E) {w rest : List Nat} {c : Nat} (h : Chr E.max w c rest)
    (ht : ∀ d ∈ w, d ≤ E.max) : c ≤ E.max := by
  cases h with
  | esc w _ _ h => exact escChar_le hE h fun d hd => ht d (by simp [hd])
  | self c _ h1 h2 => exact ht c (by simp)

theorem noDash_append {rest : List Nat} (h : NoDash rest) (hr : rest ≠ []) (out : List Nat) : NoDash (rest ++ out) := by
  cases rest with
  | nil => exact absurd rfl hr
  | cons a b =>
    cases b with
    | nil =>
      intro e
      have := h e
      cases this
    | cons d b => exact h

end Lexertl.Reading
