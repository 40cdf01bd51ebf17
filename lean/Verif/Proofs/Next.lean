import Verif.Proofs.Tokeniser

/-
The tokeniser on any text: reading one token.
-/
namespace Lexertl
open Spec

/-! ### Comments and white space -/

theorem quotes_suffix : ∀ (b : Bool) (cs : List Nat), (quotes b cs).2 <:+ cs
  | _, [] => List.suffix_refl _
  | b, c :: cs => by
    unfold quotes
    split
    · exact (quotes_suffix _ cs).trans (List.suffix_cons ..)
    · exact List.suffix_refl _

theorem commentEnd_total : ∀ (n : Nat) (cs : List Nat), Total (fun r => Adv r cs) (commentEnd n cs)
  | _, [] => trivial
  | n, c :: cs => by
    have ih := fun n => (commentEnd_total n cs).mono fun _ h => h.trans (Adv.cons (List.suffix_refl (l := cs)) (c := c))
    unfold commentEnd
    split
    · exact ih _
    split
    · split
      · exact Adv.cons (List.suffix_refl _)
      · exact ih _
    · exact ih _

theorem cCommentEnd_total : ∀ (cs : List Nat), Total (fun r => Adv r cs) (cCommentEnd cs)
  | [] => trivial
  | c :: cs => by
    unfold cCommentEnd
    split
    · exact Adv.cons (List.tail_suffix _)
    · exact (cCommentEnd_total cs).mono fun _ h => h.trans (Adv.cons (List.suffix_refl _))

theorem comment_total (b : Bool) (cs : List Nat) :
    Total (fun x => if x.1 then Adv x.2 cs else x.2 = cs) (comment b cs) := by
  unfold comment
  split
  · split
    · simp [Total]
    · rename_i cs' _
      refine (commentEnd_total 1 cs').bind fun a ha => ?_
      exact ha.trans ((Adv.cons (List.suffix_refl _)).trans ((Adv.cons (List.suffix_refl _)).trans (Adv.cons (List.suffix_refl _))))
  · simp [Total]

theorem skipLoop_total : ∀ (n : Nat) (b : Bool) (cs : List Nat), cs.length < n →
    Total (fun x => x.2 <:+ cs ∧ (Adv x.2 cs ∨ (x.1 = b ∧ x.2 = cs))) (skipLoop n b cs)
  | 0, _, _, h => by omega
  | _ + 1, b, [], _ => ⟨List.suffix_refl _, .inr ⟨rfl, rfl⟩⟩
  | n + 1, b, c :: cs, h => by
    simp only [List.length_cons] at h
    have hs : Adv cs (c :: cs) := Adv.cons (List.suffix_refl _)
    unfold skipLoop
    split
    · refine (cCommentEnd_total _).bind fun r hr => ?_
      have h1 : Adv r (c :: cs) := (hr.trans_right (List.tail_suffix _)).trans hs
      have := h1.length
      simp only [List.length_cons] at this
      refine (skipLoop_total n true r (by omega)).mono fun x hx => ?_
      exact ⟨hx.1.trans h1.suffix, .inl (Adv.trans_left hx.1 h1)⟩
    split
    · refine (skipLoop_total n true cs (by omega)).mono fun x hx => ?_
      exact ⟨hx.1.trans hs.suffix, .inl (Adv.trans_left hx.1 hs)⟩
    · exact ⟨List.suffix_refl _, .inr ⟨rfl, rfl⟩⟩

theorem skip_total (f : ReFlags) (b : Bool) (cs : List Nat) :
    Total (fun x => if x.1 then Adv x.2 cs else x.2 <:+ cs) (skip f b cs) := by
  unfold skip
  split
  · refine (skipLoop_total _ false cs (by omega)).mono fun x hx => ?_
    split
    · rename_i h
      rcases hx.2 with h' | h'
      · exact h'
      · rw [h] at h'; simp at h'
    · exact hx.1
  · simp [Total]

theorem leadIn_total (f : ReFlags) : ∀ (n : Nat) (b : Bool) (cs : List Nat), cs.length < n →
    Total (fun x => x.2 <:+ cs) (leadIn f n b cs)
  | 0, _, _, h => by omega
  | n + 1, b, cs, h => by
    unfold leadIn
    have hq := quotes_suffix b cs
    generalize quotes b cs = q at hq ⊢
    obtain ⟨b, cs1⟩ := q
    dsimp only at hq ⊢
    split
    · exact hq
    · refine (comment_total b cs1).bind fun x hx => ?_
      obtain ⟨s1, cs2⟩ := x
      dsimp only at hx ⊢
      have h2 : cs2 <:+ cs1 := by
        split at hx
        · exact hx.suffix
        · exact hx ▸ List.suffix_refl _
      split
      · exact h2.trans hq
      · refine (skip_total f b cs2).bind fun y hy => ?_
        obtain ⟨s2, cs3⟩ := y
        dsimp only at hy ⊢
        have h3 : cs3 <:+ cs2 := by
          split at hy
          · exact hy.suffix
          · exact hy
        split
        · rename_i hc
          refine (leadIn_total f n b cs3 ?_).mono fun z hz => hz.trans (h3.trans (h2.trans hq))
          have l1 := hq.length_le
          have l2 := h2.length_le
          have l3 := h3.length_le
          rcases Bool.or_eq_true_iff.1 hc.2 with hc | hc
          · rw [hc] at hx
            have := Adv.length hx
            omega
          · rw [hc] at hy
            have := Adv.length hy
            omega
        · exact h3.trans (h2.trans hq)

/-! ### Tokens -/

theorem readOptions_total : ∀ (b : Bool) (f : ReFlags) (cs : List Nat), Total (fun x => x.2 <:+ cs) (readOptions b f cs)
  | _, _, [] => List.suffix_refl _
  | b, f, c :: cs => by
    have ih := fun b f => (readOptions_total b f cs).mono fun _ h => h.trans (List.suffix_cons c cs)
    unfold readOptions
    repeat' split
    all_goals first | exact ih _ _ | exact List.suffix_cons .. | trivial

theorem le_foldl_dec : ∀ (ds : List Nat) (m : Nat), m ≤ ds.foldl (fun n c => n * 10 + (c - 48)) m
  | [], _ => Nat.le_refl _
  | d :: ds, m => Nat.le_trans (by show m ≤ m * 10 + (d - 48); omega) (le_foldl_dec ds _)

theorem number_spec : ∀ (n : Nat) (cs : List Nat),
    cs = (number n cs).2.1 ++ (number n cs).2.2 ∧ (∀ c ∈ (number n cs).2.1, 48 ≤ c ∧ c ≤ 57) ∧
    ((number n cs).2.1.foldl (fun n c => n * 10 + (c - 48)) n < 2 ^ 64 →
      (number n cs).1 = (number n cs).2.1.foldl (fun n c => n * 10 + (c - 48)) n)
  | n, [] => by simp [number]
  | n, c :: cs => by
    unfold number
    split
    · rename_i hd
      obtain ⟨h1, h2, h3⟩ := number_spec ((n * 10 + (c - 48)) % 2 ^ 64) cs
      refine ⟨by simp only [List.cons_append, ← h1], ?_, ?_⟩
      · intro d hm
        simp only [List.mem_cons] at hm
        rcases hm with rfl | hm
        · simpa [isDigit] using hd
        · exact h2 d hm
      · intro hlt
        simp only [List.foldl_cons] at hlt ⊢
        have := Nat.lt_of_le_of_lt (le_foldl_dec _ _) hlt
        have he : (n * 10 + (c - 48)) % 2 ^ 64 = n * 10 + (c - 48) := Nat.mod_eq_of_lt this
        rw [he] at h3 hlt ⊢
        exact h3 hlt
    · simp

theorem plainCounts_infix {r cs : List Nat} (h : PlainCounts cs) (hs : r <:+: cs) : PlainCounts r :=
  ⟨fun ds hd hi => h.small ds hd (hi.trans hs), fun d hd hi => h.unpadded d hd (hi.trans hs)⟩

/-- A postfix operator; a lazy count of at least zero is written `0,`. -/
def PostOk (t : Tok) : Prop :=
  (∃ r q, Postfix t r q) ∧ (t.type = .arepeatn → beforeComma t.extra = [48] ∨ 1 ≤ decVal (beforeComma t.extra))

/-- The tokens a regex consists of, apart from macros. -/
def TokOk (max : Nat) (t : Tok) : Prop :=
  (t.type = .charset ∧ t.extra = [] ∧ CharsetOk max t.str) ∨
  (t.type ∈ [.or_, .bol, .eol, .openparen, .closeparen]) ∨ PostOk t

theorem beforeComma_dec {ds : List Nat} (h : ∀ c ∈ ds, 48 ≤ c ∧ c ≤ 57) : beforeComma ds = ds := by
  have := List.takeWhile_append_of_pos (p := fun c => decide (c ≠ 44)) (l₁ := ds) (l₂ := []) (by
    intro c hc
    have := h c hc
    simp; omega)
  simpa [beforeComma] using this

theorem beforeComma_append {ds : List Nat} (h : ∀ c ∈ ds, 48 ≤ c ∧ c ≤ 57) (es : List Nat) :
    beforeComma (ds ++ 44 :: es) = ds := by
  unfold beforeComma
  rw [List.takeWhile_append_of_pos]
  · simp
  · intro c hc
    have := h c hc
    simp; omega

theorem lazyTok_total {cs : List Nat} {a b : TT} {e : List Nat} {Q : Tok → Prop} (ha : Q ⟨a, e, []⟩) (hb : Q ⟨b, e, []⟩) :
    Q (lazyTok a b e cs).1 ∧ (lazyTok a b e cs).2 <:+ cs := by
  unfold lazyTok
  split
  · exact ⟨hb, List.suffix_cons ..⟩
  · exact ⟨ha, List.suffix_refl _⟩

theorem postOk_of {t : Tok} {r q : Re} (h : Postfix t r q) (ht : t.type ≠ .arepeatn) : PostOk t :=
  ⟨⟨r, q, h⟩, fun h => (ht h).elim⟩

theorem repeatN_total {cs : List Nat} (hd : ∃ c r, cs = c :: r ∧ isDigit c = true) (hsm : PlainCounts (123 :: cs)) :
    Total (fun x => PostOk x.1 ∧ Adv x.2 cs) (repeatN cs) := by
  unfold repeatN
  obtain ⟨h1, h2, h3⟩ := number_spec 0 cs
  have hne : (number 0 cs).2.1 ≠ [] := by
    obtain ⟨c, r, rfl, hc⟩ := hd
    unfold number
    rw [if_pos hc]
    simp
  generalize number 0 cs = x at h1 h2 h3 hne ⊢
  obtain ⟨mn, d1, cs1⟩ := x
  dsimp only at h1 h2 h3 hne ⊢
  have hdec : IsDec d1 := ⟨hne, h2⟩
  have hv : mn = decVal d1 := h3 (hsm.small d1 hdec ⟨[123], cs1, by rw [h1]; rfl⟩)
  have hpad : d1 = [48] ∨ 1 ≤ decVal d1 := by
    cases d1 with
    | nil => contradiction
    | cons c ds =>
      have hc := h2 c (by simp)
      by_cases h48 : c = 48
      · cases ds with
        | nil => left; rw [h48]
        | cons d ds =>
          refine (hsm.unpadded d ?_ ⟨[], ds ++ cs1, ?_⟩).elim
          · have := h2 d (by simp)
            simp [isDigit]; omega
          · rw [h1, h48]; simp
      · right
        exact Nat.le_trans (by omega) (le_foldl_dec ds (0 * 10 + (c - 48)))
  have hadv : ∀ {r : List Nat}, r <:+ cs1 → Adv r cs := by
    intro r hr
    obtain ⟨c, ds, rfl⟩ : ∃ c ds, d1 = c :: ds := by
      cases d1 with
      | nil => contradiction
      | cons c ds => exact ⟨c, ds, rfl⟩
    rw [h1]
    exact Adv.cons (hr.trans (List.suffix_append ..))
  have fin : ∀ {a b : TT} {e r : List Nat}, PostOk ⟨a, e, []⟩ → PostOk ⟨b, e, []⟩ → r <:+ cs1 →
      Total (fun x => PostOk x.1 ∧ Adv x.2 cs) (.ok (lazyTok a b e r)) := by
    intro a b e r ha hb hr
    obtain ⟨q1, q2⟩ := lazyTok_total (cs := r) (Q := PostOk) ha hb
    exact ⟨q1, hadv (q2.trans hr)⟩
  have hrep : ∀ {e lo hi}, Count e lo hi → beforeComma e = d1 → PostOk ⟨.repeatn, e, []⟩ ∧ PostOk ⟨.arepeatn, e, []⟩ :=
    fun h he => ⟨postOk_of (Postfix.rep _ _ (Re.chars []) _ _ h) (by simp),
      ⟨_, _, Postfix.arep _ _ (Re.chars []) _ _ h⟩, fun _ => by dsimp only; rw [he]; exact hpad⟩
  split
  · trivial
  rename_i c cs2
  have s2 : cs2 <:+ c :: cs2 := List.suffix_cons ..
  split
  · split
    · trivial
    rename_i c' cs3
    have s3 : cs3 <:+ c' :: cs3 := List.suffix_cons ..
    split
    · split
      · exact fin (postOk_of (Postfix.star _ _ (Re.chars [])) (by simp)) (postOk_of (Postfix.astar _ _ (Re.chars [])) (by simp)) (s3.trans s2)
      split
      · exact fin (postOk_of (Postfix.plus _ _ (Re.chars [])) (by simp)) (postOk_of (Postfix.aplus _ _ (Re.chars [])) (by simp)) (s3.trans s2)
      · obtain ⟨a, b⟩ := hrep (Count.atLeast d1 hdec (by omega)) (beforeComma_append h2 [])
        exact fin a b (s3.trans s2)
    split
    · trivial
    · rename_i hdig
      obtain ⟨g1, g2, g3⟩ := number_spec 0 (c' :: cs3)
      have gne : (number 0 (c' :: cs3)).2.1 ≠ [] := by
        unfold number
        rw [if_pos (by simpa using hdig)]
        simp
      generalize number 0 (c' :: cs3) = y at g1 g2 g3 gne ⊢
      obtain ⟨mx, d2, cs4⟩ := y
      dsimp only at g1 g2 g3 gne ⊢
      have gdec : IsDec d2 := ⟨gne, g2⟩
      have gv : mx = decVal d2 := by
        refine g3 (hsm.small d2 gdec ?_)
        refine List.IsInfix.trans ⟨[], cs4, g1.symm⟩ (List.IsSuffix.isInfix ?_)
        exact (s2.trans (h1 ▸ List.suffix_append ..)).trans (List.suffix_cons ..)
      have s4 : cs4 <:+ c :: c' :: cs3 := List.IsSuffix.trans (g1 ▸ List.suffix_append ..) s2
      split
      · trivial
      rename_i c5 cs5
      have s5 : cs5 <:+ c :: c' :: cs3 := List.IsSuffix.trans (List.suffix_cons ..) s4
      split
      · trivial
      split
      · exact fin (postOk_of (Postfix.opt _ _ (Re.chars [])) (by simp)) (postOk_of (Postfix.aopt _ _ (Re.chars [])) (by simp)) s5
      split
      · split
        · trivial
        · obtain ⟨a, b⟩ := hrep (Count.exact d1 hdec (by omega)) (beforeComma_dec h2)
          exact fin a b s5
      split
      · trivial
      · obtain ⟨a, b⟩ := hrep (Count.between d1 d2 h2 gdec (by omega) (by omega)) (beforeComma_append h2 d2)
        rw [List.append_assoc]
        exact fin a b s5
  split
  · trivial
  split
  · trivial
  · obtain ⟨a, b⟩ := hrep (Count.exact d1 hdec (by omega)) (beforeComma_dec h2)
    exact fin a b s2

theorem macroName_suffix : ∀ (cs : List Nat), (macroName cs).2 <:+ cs
  | [] => List.suffix_refl _
  | c :: cs => by
    unfold macroName
    split
    · exact (macroName_suffix cs).trans (List.suffix_cons ..)
    · exact List.suffix_refl _

theorem macroTok_total (cs : List Nat) : Total (fun x => x.1.type = .macro_ ∧ Adv x.2 cs) (macroTok cs) := by
  unfold macroTok
  split
  · trivial
  rename_i c cs
  split
  · trivial
  · have h := macroName_suffix cs
    dsimp only
    split
    · trivial
    rename_i d r heq
    split
    · trivial
    · refine ⟨rfl, Adv.cons ?_⟩
      rw [heq] at h
      exact (List.suffix_cons ..).trans h

/-- What a token read from the text `cs` is. -/
structure TokNextOk (max : Nat) (lhs : TT) (s : TkState) (x : Lexeme × TkState) : Prop where
  len : x.2.len = s.len
  suffix : x.2.rest <:+ s.rest
  adv : x.1 ≠ .tok endTok → Adv x.2.rest s.rest
  diff : ∀ c, x.1 = .diff c → lhs = .charset ∧ (c = 45 ∨ c = 43) ∧ x.2.parens = s.parens
  tok : ∀ t, x.1 = .tok t →
    (t = endTok ∧ s.parens = 0 ∧ x.2.parens = 0) ∨ (t.type = .macro_ ∧ x.2.parens = s.parens) ∨
    (TokOk max t ∧ x.2.parens + (if t.type = .closeparen then 1 else 0) =
      s.parens + (if t.type = .openparen then 1 else 0))

theorem openCurly_total {lhs : TT} {cs : List Nat} (hsm : PlainCounts (123 :: cs)) :
    Total (fun x => Adv x.2 cs ∧ (match x.1 with
      | .diff c => lhs = .charset ∧ (c = 45 ∨ c = 43)
      | .tok t => t.type = .macro_ ∨ PostOk t)) (openCurly lhs cs) := by
  unfold openCurly
  split
  · trivial
  rename_i c cs
  split
  · rename_i hc
    split
    · trivial
    split
    · trivial
    split
    · trivial
    · rename_i hl _ _ _ _
      exact ⟨Adv.trans_left (List.suffix_cons ..) (Adv.cons (List.suffix_refl _)), by simpa using hl, hc⟩
  split
  · rename_i hd
    exact (repeatN_total ⟨c, cs, rfl, hd⟩ hsm).bind fun x hx => ⟨hx.2, .inr hx.1⟩
  · exact (macroTok_total _).bind fun x hx => ⟨hx.2, .inl hx.1⟩

theorem escapeTok_total {E : TokEnv} (hE : TokEnvOk E) (ic : Bool) {cs : List Nat} (hx : TextOk E cs) :
    Total (fun x => CharsetOk E.max x.1 ∧ Adv x.2 cs) (escapeTok E ic cs) := by
  unfold escapeTok
  refine (escapeSeq_total hE hx).bind fun a ha => ?_
  obtain ⟨e, r⟩ := a
  cases e with
  | text s =>
    exact (charset_escText hE ic (by decide) (by decide) ha.1).bind fun b hb => ⟨hb.1, ha.2⟩
  | char d =>
    have h1 := addRange_cs (r := (d, d)) hE ic (Nat.le_refl d) ha.1 Cs.nil
    exact ⟨⟨h1.normal, h1.within, Cs.ne_of_mem (addRange_mem (r := (d, d)) hE ic (Nat.le_refl d) ha.1 Cs.nil ⟨Nat.le_refl _, Nat.le_refl _⟩)⟩, ha.2⟩

theorem char_ok {E : TokEnv} (hE : TokEnvOk E) (ic : Bool) {c : Nat} (hc : c ≤ E.max) :
    CharsetOk E.max (addRange E ic (c, c) []) := by
  have h1 := addRange_cs (r := (c, c)) hE ic (Nat.le_refl c) hc Cs.nil
  exact ⟨h1.normal, h1.within, Cs.ne_of_mem (addRange_mem (r := (c, c)) hE ic (Nat.le_refl c) hc Cs.nil ⟨Nat.le_refl _, Nat.le_refl _⟩)⟩

theorem dotSet_ok {E : TokEnv} (hE : TokEnvOk E) (f : ReFlags) : CharsetOk E.max (dotSet E f) := by
  have hb := hE.big
  unfold dotSet
  dsimp only
  have key : ∀ t : Token, Cs E.max t → ¬ Mem 0 t → CharsetOk E.max (t.negate E.max) := by
    intro t ht hm
    refine ⟨ht.negate.normal, ht.negate.within, Cs.ne_of_mem (c := 0) ?_⟩
    exact ((Token.negate_spec E.max t ht.normal ht.within).2 0).2 ⟨by omega, hm⟩
  have h10 : Cs E.max (Token.insert [] (10, 10)) := Cs.nil.insert (Nat.le_refl _) (by dsimp only; omega)
  split
  · refine key _ h10 fun h => ?_
    have := (Token.mem_insert [] (10, 10) Token.normal_nil (Nat.le_refl _) 0).1 h
    simp only [Mem, List.not_mem_nil, false_and, exists_false, false_or] at this
    omega
  split
  · refine key _ (h10.insert (Nat.le_refl _) (by dsimp only; omega)) fun h => ?_
    rcases (Token.mem_insert _ (13, 13) h10.normal (Nat.le_refl _) 0).1 h with h | h
    · have := (Token.mem_insert [] (10, 10) Token.normal_nil (Nat.le_refl _) 0).1 h
      simp only [Mem, List.not_mem_nil, false_and, exists_false, false_or] at this
      omega
    · simp at h
  · exact key _ Cs.nil (Token.mem_nil 0)

theorem if_cases {α : Type} {Q : α → Prop} {p : Prop} [Decidable p] {x y : M α} (hx : p → Total Q x)
    (hy : ¬ p → Total Q y) : Total Q (if p then x else y) := by
  split
  · exact hx ‹_›
  · exact hy ‹_›

/-- Reading a token: no undefined behaviour and no endless loop on any text. -/
theorem next_total {E : TokEnv} (hE : TokEnvOk E) (lhs : TT) (s : TkState) (hx : TextOk E s.rest)
    (hsm : PlainCounts s.rest) : Total (TokNextOk E.max lhs s) (s.next E lhs) := by
  have hb := hE.big
  unfold TkState.next
  refine (leadIn_total s.flags _ s.inString s.rest (by omega)).bind fun x hsuf => ?_
  obtain ⟨b, cs⟩ := x
  dsimp only at hsuf ⊢
  cases cs with
  | nil =>
    dsimp only
    split
    · trivial
    split
    · trivial
    · rename_i hp
      refine ⟨rfl, hsuf, fun h => (h rfl).elim, by simp, ?_⟩
      rintro t ⟨⟩
      exact .inl ⟨rfl, by simpa using hp, by simpa using hp⟩
  | cons c cs =>
    have hx1 := textOk_suffix hx hsuf
    have hc : c ≤ E.max := hx1 c (by simp)
    have hx2 := textOk_suffix hx1 (List.suffix_cons ..)
    have hsm2 : PlainCounts (c :: cs) := plainCounts_infix hsm hsuf.isInfix
    have hadv : ∀ {r : List Nat}, r <:+ cs → Adv r s.rest := fun hr => (Adv.cons hr).trans_right hsuf
    have fin : ∀ {t : Tok} {s' : TkState}, s'.len = s.len → s'.rest <:+ cs → TokOk E.max t →
        s'.parens + (if t.type = .closeparen then 1 else 0) = s.parens + (if t.type = .openparen then 1 else 0) →
        Total (TokNextOk E.max lhs s) (.ok (.tok t, s')) := by
      intro t s' h1 h2 h3 h4
      refine ⟨h1, (hadv h2).suffix, fun _ => hadv h2, by simp, ?_⟩
      rintro _ ⟨⟩
      exact .inr (.inr ⟨h3, h4⟩)
    have hset : ∀ {t : Token} {r : List Nat}, r <:+ cs → CharsetOk E.max t → Total (TokNextOk E.max lhs s)
        (.ok (.tok ⟨.charset, [], t⟩, { s with inString := b, rest := r })) :=
      fun hr ht => fin rfl hr (.inl ⟨rfl, rfl, ht⟩) rfl
    have hpost : ∀ {t : Tok} {r : List Nat}, r <:+ cs → PostOk t → Total (TokNextOk E.max lhs s)
        (.ok (.tok t, { s with inString := b, rest := r })) := by
      intro t r hr ht
      refine fin rfl hr (.inr (.inr ht)) ?_
      obtain ⟨⟨_, _, ht⟩, _⟩ := ht
      cases ht <;> rfl
    have hsing : CharsetOk E.max (Token.insert [] (c, c)) := by
      have h1 : Cs E.max (Token.insert [] (c, c)) := Cs.nil.insert (Nat.le_refl _) hc
      exact ⟨h1.normal, h1.within, Cs.ne_of_mem ((Token.mem_insert [] (c, c) Token.normal_nil (Nat.le_refl _) c).2
        (.inr ⟨Nat.le_refl _, Nat.le_refl _⟩))⟩
    change Total _ (if c = 92 then _ else _)
    refine if_cases (fun _ => ?_) fun _ => ?_
    · exact (escapeTok_total hE _ hx2).bind fun x hx => hset hx.2.suffix hx.1
    refine if_cases (fun _ => ?_) fun _ => ?_
    · exact hset (List.suffix_refl _) (char_ok hE _ hc)
    refine if_cases (fun _ => ?_) fun _ => ?_
    · split
      · rename_i cs'
        refine (readOptions_total false s.flags cs').bind fun x hx => ?_
        exact fin rfl (hx.trans (List.suffix_cons ..)) (.inr (.inl (by simp))) rfl
      · exact fin rfl (List.suffix_refl _) (.inr (.inl (by simp))) rfl
    refine if_cases (fun _ => ?_) fun _ => ?_
    · split
      · trivial
      · rename_i hp
        split
        · exact fin rfl (List.suffix_refl _) (.inr (.inl (by simp))) (by dsimp only at hp ⊢; simp; omega)
        · exact fin rfl (List.suffix_refl _) (.inr (.inl (by simp))) (by dsimp only at hp ⊢; simp; omega)
    refine if_cases (fun _ => ?_) fun _ => ?_
    · obtain ⟨h1, h2⟩ := lazyTok_total (cs := cs) (a := .opt) (b := .aopt) (e := []) (Q := PostOk)
        (postOk_of (Postfix.opt _ _ (Re.chars [])) (by simp)) (postOk_of (Postfix.aopt _ _ (Re.chars [])) (by simp))
      exact hpost h2 h1
    refine if_cases (fun _ => ?_) fun _ => ?_
    · obtain ⟨h1, h2⟩ := lazyTok_total (cs := cs) (a := .zeroormore) (b := .azeroormore) (e := []) (Q := PostOk)
        (postOk_of (Postfix.star _ _ (Re.chars [])) (by simp)) (postOk_of (Postfix.astar _ _ (Re.chars [])) (by simp))
      exact hpost h2 h1
    refine if_cases (fun _ => ?_) fun _ => ?_
    · obtain ⟨h1, h2⟩ := lazyTok_total (cs := cs) (a := .oneormore) (b := .aoneormore) (e := []) (Q := PostOk)
        (postOk_of (Postfix.plus _ _ (Re.chars [])) (by simp)) (postOk_of (Postfix.aplus _ _ (Re.chars [])) (by simp))
      exact hpost h2 h1
    refine if_cases (fun _ => ?_) fun _ => ?_
    · subst_vars
      refine (openCurly_total (lhs := lhs) hsm2).bind fun x hx => ?_
      obtain ⟨l, r⟩ := x
      cases l with
      | diff d =>
        refine ⟨rfl, (hadv hx.1.suffix).suffix, fun _ => hadv hx.1.suffix, ?_, by simp⟩
        rintro _ ⟨⟩
        exact ⟨hx.2.1, hx.2.2, rfl⟩
      | tok t =>
        rcases hx.2 with h | h
        · refine ⟨rfl, (hadv hx.1.suffix).suffix, fun _ => hadv hx.1.suffix, by simp, ?_⟩
          rintro _ ⟨⟩
          exact .inr (.inl ⟨h, rfl⟩)
        · exact hpost hx.1.suffix h
    refine if_cases (fun _ => ?_) fun _ => ?_
    · exact fin rfl (List.suffix_refl _) (.inr (.inl (by simp))) rfl
    refine if_cases (fun _ => ?_) fun _ => ?_
    · split
      · exact fin rfl (List.suffix_refl _) (.inr (.inl (by simp))) rfl
      · exact hset (List.suffix_refl _) hsing
    refine if_cases (fun _ => ?_) fun _ => ?_
    · split
      · exact fin rfl (List.suffix_refl _) (.inr (.inl (by simp))) rfl
      · exact hset (List.suffix_refl _) hsing
    refine if_cases (fun _ => ?_) fun _ => ?_
    · exact hset (List.suffix_refl _) (dotSet_ok hE _)
    refine if_cases (fun _ => ?_) fun _ => ?_
    · exact (charset_total hE _ hx2).bind fun x hx => hset hx.2.suffix hx.1
    refine if_cases (fun _ => ?_) fun _ => ?_
    · trivial
    · exact hset (List.suffix_refl _) (char_ok hE _ hc)

end Lexertl
