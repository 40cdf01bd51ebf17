import Verif.Proofs.Lexemes

/-
The tokeniser, called again and again, finds the lexemes of a text.
-/
namespace Lexertl.Reading
open Spec

theorem brackets_ne {E : TokEnv} {ic : Bool} {w : List Nat} {S : Nat → Prop} {rest : List Nat}
    (h : Brackets E ic .whole w S rest) : ∃ c, S c := by
  cases h with
  | pos _ _ _ _ h => exact h
  | neg _ _ _ h => exact h

theorem atomText_ne {E : TokEnv} {f : ReFlags} {b start : Bool} {w : List Nat} {S : Nat → Prop} {rest : List Nat}
    (h : AtomText E f b start w S rest) : ∃ c, S c := by
  cases h with
  | quoted c => exact ⟨_, .inl rfl⟩
  | plain => exact ⟨_, .inl rfl⟩
  | caret => exact ⟨_, rfl⟩
  | dollar => exact ⟨_, rfl⟩
  | dot _ _ h => exact h
  | esc => exact ⟨_, .inl rfl⟩
  | short _ _ _ _ _ _ h => exact h
  | prop _ _ _ _ _ _ _ _ _ h => exact brackets_ne h
  | set _ _ _ _ h => exact brackets_ne h

/-- The token of a lexeme. -/
inductive LexTok (max : Nat) : Lx → Lexeme → Prop
  | chars (t) : SetOk max t → LexTok max (.chars t) (.tok ⟨.charset, [], t⟩)
  | bol : LexTok max .bol (.tok ⟨.bol, [], []⟩)
  | eol : LexTok max .eol (.tok ⟨.eol, [], []⟩)
  | bar : LexTok max .bar (.tok ⟨.or_, [], []⟩)
  | opn : LexTok max .opn (.tok ⟨.openparen, [], []⟩)
  | cls : LexTok max .cls (.tok ⟨.closeparen, [], []⟩)
  | rep (lo hi lz d) : IsRep d lo hi lz → LexTok max (.rep lo hi lz) (.tok d)
  | minus : LexTok max .minus (.diff 45)
  | union : LexTok max .union (.diff 43)
  | mac (name) : LexTok max (.mac name) (.tok ⟨.macro_, name, []⟩)

/-- The tokeniser is at this place of a text. -/
structure At (s : TkState) (start : Bool) (f : ReFlags) (fs : List ReFlags) (b : Bool) (w : List Nat) : Prop where
  rest : s.rest = w
  flags : s.flags = f
  string : s.inString = b
  parens : s.parens = fs.length
  len : if start then s.len = w.length else w.length < s.len
  stack : ∃ tl, fs = s.flagsStack ++ tl ∧ ∀ g ∈ tl, g = s.flagsStack.getLastD f

/-! ### Noise -/

theorem options_head {neg : Bool} {f f' : ReFlags} {v : List Nat} (h : Options neg f v f') : ∃ c cs, v = c :: cs ∧ c ∈ [58, 45, 105, 115, 120] := by
  cases h <;> exact ⟨_, _, rfl, by simp⟩

theorem skippable_head {c : Nat} {w : List Nat} (h : Skippable (c :: w)) : c = 47 ∨ IsSpace c := by
  obtain ⟨d, cs, h1, h2⟩ := h
  injection h1 with h1 _
  subst h1
  rw [isWs_iff] at h2
  exact h2.imp (·.1) id

theorem quiet_of {f : ReFlags} {b : Bool} {c : Nat} {w : List Nat} (h1 : c ≠ 34) (h2 : b = false → c = 40 → ∀ cs, w ≠ 63 :: 35 :: cs)
    (h3 : b = false → f.skipWs = true → c ≠ 47 ∧ ¬ IsSpace c) : Quiet f b (c :: w) := by
  refine ⟨by simpa using h1, ?_, ?_⟩
  · intro hb cs h
    injection h with h4 h5
    exact h2 hb h4 cs h5
  · intro hb hf hs
    have := h3 hb hf
    rcases skippable_head hs with h | h
    · exact this.1 h
    · exact this.2 h

theorem leads_suffix {E : TokEnv} {start : Bool} {f : ReFlags} {fs : List ReFlags} {b : Bool} {w : List Nat} {ls : List Lx}
    (h : Reads E start f fs b w ls) : ∃ start' b' w', Leads f b w b' w' ∧ Quiet f b' w' ∧ Reads E start' f fs b' w' ls ∧ w' <:+ w ∧
      ((start' = start ∧ w' = w) ∨ (start' = false ∧ w'.length < w.length)) := by
  have go : ∀ {start f fs b w ls}, Quiet f b w → Reads E start f fs b w ls → ∃ start' b' w', Leads f b w b' w' ∧ Quiet f b' w' ∧
      Reads E start' f fs b' w' ls ∧ w' <:+ w ∧ ((start' = start ∧ w' = w) ∨ (start' = false ∧ w'.length < w.length)) :=
    fun {start f fs b w ls} hq h => ⟨start, b, w, leads_quiet hq, hq, h, List.suffix_refl _, .inl ⟨rfl, rfl⟩⟩
  have sp : ∀ {c : Nat}, IsSpace c → c ∈ [32, 9, 10, 13, 12, 11] := fun h => h
  have hash : ∀ c : Nat, c ∈ [36, 94, 46, 91, 92, 124, 41, 63, 42, 43, 123] → c ≠ 34 ∧ c ≠ 40 ∧ c ≠ 47 ∧ ¬ IsSpace c := by decide
  have hq : ∀ (f : ReFlags) (b : Bool) (c : Nat) (w : List Nat), c ∈ [36, 94, 46, 91, 92, 124, 41, 63, 42, 43, 123] → Quiet f b (c :: w) :=
    fun f b c w h => quiet_of (hash c h).1 (fun _ h' => absurd h' (hash c h).2.1) fun _ _ => (hash c h).2.2
  induction h with
  | done start f =>
    refine go ⟨by simp, by simp, ?_⟩ (.done start f)
    rintro _ _ ⟨c, cs, h, _⟩
    cases h
  | quote start f fs b w ls h ih =>
    obtain ⟨start', b', w', h1, h2, h3, h4, h5⟩ := ih
    refine ⟨start', b', w', leads_quote h1, h2, h3, h4.trans (List.suffix_cons ..), .inr ?_⟩
    rcases h5 with ⟨rfl, rfl⟩ | ⟨rfl, h5⟩
    · exact ⟨rfl, by simp⟩
    · exact ⟨rfl, by simp; omega⟩
  | comment start f fs v w ls hv h ih =>
    obtain ⟨start', b', w', h1, h2, h3, h4, h5⟩ := ih
    refine ⟨start', b', w', leads_comment hv h1, h2, h3, h4.trans (List.suffix_append ..), .inr ?_⟩
    rcases h5 with ⟨rfl, rfl⟩ | ⟨rfl, h5⟩
    · exact ⟨rfl, by simp; omega⟩
    · exact ⟨rfl, by simp; omega⟩
  | space start f fs c w ls hf hc h ih =>
    obtain ⟨start', b', w', h1, h2, h3, h4, h5⟩ := ih
    refine ⟨start', b', w', leads_space hf hc h1, h2, h3, h4.trans (List.suffix_cons ..), .inr ?_⟩
    rcases h5 with ⟨rfl, rfl⟩ | ⟨rfl, h5⟩
    · exact ⟨rfl, by simp⟩
    · exact ⟨rfl, by simp; omega⟩
  | ccomment start f fs v w ls hf hv h ih =>
    obtain ⟨start', b', w', h1, h2, h3, h4, h5⟩ := ih
    refine ⟨start', b', w', leads_ccomment hf hv h1, h2, h3, h4.trans (List.suffix_append ..), .inr ?_⟩
    rcases h5 with ⟨rfl, rfl⟩ | ⟨rfl, h5⟩
    · exact ⟨rfl, by simp; omega⟩
    · exact ⟨rfl, by simp; omega⟩
  | atom start f fs b v S t w ls ha ht h ih =>
    refine go ?_ (.atom start f fs b v S t w ls ha ht h)
    cases ha with
    | quoted start c _ h1 h2 => exact quiet_of h1 (by simp) (by simp)
    | plain start c _ h1 h2 =>
      simp only [metaChars, List.mem_cons, List.not_mem_nil, or_false, not_or] at h1
      exact quiet_of (by omega) (by omega) fun _ hf => ⟨by omega, fun hs => h2 ⟨hf, hs⟩⟩
    | caret => exact hq _ _ _ _ (by simp)
    | dollar => exact hq _ _ _ _ (by simp)
    | dot => exact hq _ _ _ _ (by simp)
    | esc => exact hq _ _ _ _ (by simp)
    | short => exact hq _ _ _ _ (by simp)
    | prop => exact hq _ _ _ _ (by simp)
    | set => exact hq _ _ _ _ (by simp)
  | bol f fs w ls h ih => exact go (hq _ _ _ _ (by simp)) (.bol f fs w ls h)
  | eol start f fs ls h ih => exact go (hq _ _ _ _ (by simp)) (.eol start f fs ls h)
  | bar start f fs w ls h ih => exact go (hq _ _ _ _ (by simp)) (.bar start f fs w ls h)
  | opn start f fs w ls hh h ih =>
    refine go (quiet_of (by decide) ?_ (fun _ _ => by decide)) (.opn start f fs w ls hh h)
    rintro _ _ cs rfl
    simp at hh
  | opts start f fs v f' w ls ho h ih =>
    refine go (quiet_of (by decide) ?_ (fun _ _ => by decide)) (.opts start f fs v f' w ls ho h)
    obtain ⟨c, cs, rfl, hc⟩ := options_head ho
    intro _ _ cs' h'
    injection h' with _ h'
    injection h' with h' _
    subst h'
    simp at hc
  | cls start f g fs w ls h ih => exact go (hq _ _ _ _ (by simp)) (.cls start f g fs w ls h)
  | rep start f fs v lo hi w ls hv hw h ih =>
    refine go ?_ (.rep start f fs v lo hi w ls hv hw h)
    simp only [List.mem_cons, List.not_mem_nil, or_false, Prod.mk.injEq] at hv
    rcases hv with ⟨rfl, _⟩ | ⟨rfl, _⟩ | ⟨rfl, _⟩ <;> exact hq _ _ _ _ (by simp)
  | repLazy start f fs v lo hi w ls hv h ih =>
    refine go ?_ (.repLazy start f fs v lo hi w ls hv h)
    simp only [List.mem_cons, List.not_mem_nil, or_false, Prod.mk.injEq] at hv
    rcases hv with ⟨rfl, _⟩ | ⟨rfl, _⟩ | ⟨rfl, _⟩ <;> exact hq _ _ _ _ (by simp)
  | count start f fs v lo hi w ls hv hw h ih => exact go (hq _ _ _ _ (by simp)) (.count start f fs v lo hi w ls hv hw h)
  | countLazy start f fs v lo hi w ls hv h ih => exact go (hq _ _ _ _ (by simp)) (.countLazy start f fs v lo hi w ls hv h)
  | minus start f fs w ls h ih => exact go (hq _ _ _ _ (by simp)) (.minus start f fs w ls h)
  | union start f fs w ls h ih => exact go (hq _ _ _ _ (by simp)) (.union start f fs w ls h)
  | mac start f fs name w ls hn h ih => exact go (hq _ _ _ _ (by simp)) (.mac start f fs name w ls hn h)

/-- `next` after quotes, comments and white space. -/
theorem next_leads {E : TokEnv} {s : TkState} {b' : Bool} {w' : List Nat} (h : Leads s.flags s.inString s.rest b' w')
    (hq : Quiet s.flags b' w') (lhs : TT) : s.next E lhs = TkState.next E lhs { s with inString := b', rest := w' } := by
  unfold TkState.next
  rw [h (s.rest.length + 2) (by omega), leads_quiet hq (w'.length + 2) (by omega)]

/-! ### One lexeme -/

/-- The result of `next` for a lexeme. -/
structure Found (E : TokEnv) (s : TkState) (w : List Nat) (l : Lx) (ls : List Lx) (f : ReFlags) (fs : List ReFlags) (b : Bool) (w' : List Nat) : Prop where
  found : ∃ x s', LexTok E.max l x ∧ At s' false f fs b w' ∧ ∀ lhs, (l = .minus ∨ l = .union → lhs = .charset) → s.next E lhs = .ok (x, s')
  reads : Reads E false f fs b w' ls
  suffix : w' <:+ w
  shorter : w'.length < w.length

theorem at_len {s : TkState} {start : Bool} {f : ReFlags} {fs : List ReFlags} {b : Bool} {w : List Nat} (h : At s start f fs b w) : w.length ≤ s.len := by
  have := h.len
  split at this <;> omega

theorem at_move {s : TkState} {start : Bool} {f : ReFlags} {fs : List ReFlags} {b : Bool} {w w' : List Nat} (h : At s start f fs b w)
    (hl : w'.length < w.length) : At { s with rest := w' } false f fs b w' :=
  ⟨rfl, h.flags, h.string, h.parens, by have := at_len h; simp; omega, h.stack⟩

theorem leads_len {f : ReFlags} {b : Bool} {w : List Nat} (hq : Quiet f b w) : leadIn f (w.length + 2) b w = .ok (b, w) :=
  leads_quiet hq _ (by omega)

local macro "next_step" h:term : tactic =>
  `(tactic| (unfold TkState.next; rw [leads_len $h]; simp only [bind, Except.bind]))

/-- In a quiet place `next` finds the next lexeme. -/
theorem reads_found {E : TokEnv} (hE : TokEnvOk E) (hC : CharsOk E) {start : Bool} {f : ReFlags} {fs : List ReFlags} {b : Bool} {w : List Nat}
    {ls : List Lx} {s : TkState} (h : Reads E start f fs b w ls) (hq : Quiet f b w) (hx : TextOk E w) (ha : At s start f fs b w) :
    (ls = [] ∧ ∃ s', ∀ lhs, s.next E lhs = .ok (.tok ⟨.end_, [], []⟩, s')) ∨
    ∃ l ls' f' fs' b' w', ls = l :: ls' ∧ Found E s w l ls' f' fs' b' w' := by
  obtain ⟨len, rest, flags, st, p, q⟩ := s
  obtain ⟨h1, h2, h3, h4, hlen, hst⟩ := id ha
  dsimp only at h1 h2 h3 h4 hlen hst
  subst h1 h2 h3 h4
  cases h with
  | done start f => exact .inl ⟨rfl, ⟨len, [], flags, st, 0, false⟩, fun lhs => rfl⟩
  | quote start f fs b w ls h => exact absurd rfl hq.quote
  | comment start f fs v w ls hv h => exact absurd rfl (hq.comment rfl _)
  | space start f fs c w ls hf hc h => exact absurd ⟨c, w, rfl, .inr ((isWs_iff c).2 hc)⟩ (hq.skip rfl hf)
  | ccomment start f fs v w ls hf hv h => exact absurd ⟨47, 42 :: v ++ w, rfl, .inl ⟨rfl, rfl⟩⟩ (hq.skip rfl hf)
  | atom start f fs b v S t w ls hat hset h =>
    have htne : t ≠ [] := by
      obtain ⟨c, hc⟩ := atomText_ne hat
      rintro rfl
      exact Token.mem_nil c ((hset.2 c).2 hc)
    have fin : ∀ t', SetIs E.max t' S → (∀ lhs, TkState.next E lhs ⟨len, v ++ w, flags, st, fs.length, q⟩ =
          .ok (.tok ⟨.charset, [], t'⟩, ⟨len, w, flags, st, fs.length, q⟩)) → v ≠ [] →
        ∃ l ls' f' fs' b' w', .chars t :: ls = l :: ls' ∧ Found E ⟨len, v ++ w, flags, st, fs.length, q⟩ (v ++ w) l ls' f' fs' b' w' := by
      intro t' ht' hn hv
      have hl : w.length < (v ++ w).length := by
        have := List.length_pos_iff.2 hv
        simp; omega
      have hwi : Within E.max t := setIs_unique ht' hset ▸ ht'.cs.within
      refine ⟨_, _, flags, fs, q, w, rfl, ⟨_, _, .chars t ⟨hset.1, htne, hwi⟩, at_move ha hl, fun lhs _ => ?_⟩, h, List.suffix_append .., hl⟩
      rw [← setIs_unique ht' hset]
      exact hn lhs
    have hxv : ∀ d ∈ v, d ≤ E.max := fun d hd => hx d (by simp [hd])
    right
    cases hat with
    | quoted start c _ h1 h2 =>
      refine fin _ (one_char hE hC flags.icase (hxv c (by simp))) (fun lhs => ?_) (by simp)
      simp only [List.cons_append, List.nil_append] at hq ⊢
      next_step hq
      rw [if_neg h2, if_pos trivial]
    | plain start c _ h1 h2 =>
      simp only [metaChars, List.mem_cons, List.not_mem_nil, or_false, not_or] at h1
      refine fin _ (one_char hE hC flags.icase (hxv c (by simp))) (fun lhs => ?_) (by simp)
      simp only [List.cons_append, List.nil_append] at hq ⊢
      next_step hq
      simp only [Bool.false_eq_true, if_false]
      repeat rw [if_neg (by omega)]
    | caret =>
      refine fin _ (setIs_self (hxv 94 (by simp))) (fun lhs => ?_) (by simp)
      simp only [List.cons_append, List.nil_append] at hq hlen ⊢
      next_step hq
      simp only [Bool.false_eq_true, if_false] at hlen ⊢
      repeat rw [if_neg (by decide)]
      rw [if_pos trivial, if_neg (by simp at hlen; omega)]
    | dollar start _ h1 =>
      refine fin _ (setIs_self (hxv 36 (by simp))) (fun lhs => ?_) (by simp)
      simp only [List.cons_append, List.nil_append] at hq hlen ⊢
      next_step hq
      simp only [Bool.false_eq_true, if_false]
      repeat rw [if_neg (by decide)]
      rw [if_pos trivial, if_neg h1]
    | dot start _ h1 =>
      refine fin _ (dotSet_is hE flags) (fun lhs => ?_) (by simp)
      simp only [List.cons_append, List.nil_append] at hq hlen ⊢
      next_step hq
      simp only [Bool.false_eq_true, if_false]
      repeat rw [if_neg (by decide)]
      rw [if_pos trivial]
    | esc b start v c _ h1 =>
      obtain ⟨t', g1, g2⟩ := escapeTok_char hE hC flags.icase h1 (fun d hd => hxv d (by simp [hd]))
      refine fin _ g2 (fun lhs => ?_) (by simp)
      simp only [List.cons_append] at hq ⊢
      next_step hq
      simp only [if_true]
      rw [g1]
    | short b start c S _ h1 hex =>
      obtain ⟨t', g1, g2⟩ := escapeTok_short hE hC h1 hex w
      refine fin _ g2 (fun lhs => ?_) (by simp)
      simp only [List.cons_append, List.nil_append] at hq ⊢
      next_step hq
      simp only [if_true]
      rw [g1]
    | prop b start name body S _ h1 h2 h3 h4 =>
      obtain ⟨t', g1, g2⟩ := escapeTok_prop (rest := w) hE hC h1 h2 h3 h4
      refine fin _ g2 (fun lhs => ?_) (by simp)
      simp only [List.cons_append] at hq g1 ⊢
      next_step hq
      simp only [if_true]
      rw [g1]
    | set start body S _ h1 =>
      obtain ⟨t', g1, g2⟩ := charset_ok (rest := w) hE hC h1 (fun d hd => hx d (by simp at hd; simp [hd]))
      refine fin _ g2 (fun lhs => ?_) (by simp)
      simp only [List.cons_append] at hq ⊢
      next_step hq
      simp only [Bool.false_eq_true, if_false]
      repeat rw [if_neg (by decide)]
      rw [if_pos trivial, g1]
  | bol f fs w ls h =>
    right
    refine ⟨_, _, flags, fs, false, w, rfl, ⟨_, _, .bol, at_move ha (by simp), fun lhs _ => ?_⟩, h, List.suffix_cons .., by simp⟩
    next_step hq
    simp only [Bool.false_eq_true, if_false, if_true] at hlen ⊢
    repeat rw [if_neg (by decide)]
    rw [if_pos (by simp at hlen; omega)]
  | eol start f fs ls h =>
    right
    refine ⟨_, _, flags, fs, false, [], rfl, ⟨_, _, .eol, at_move ha (by simp), fun lhs _ => ?_⟩, h, List.suffix_cons .., by simp⟩
    next_step hq
    rfl
  | bar start f fs w ls h =>
    right
    refine ⟨_, _, flags, fs, false, w, rfl, ⟨_, _, .bar, at_move ha (by simp), fun lhs _ => ?_⟩, h, List.suffix_cons .., by simp⟩
    next_step hq
    rfl
  | opn start f fs w ls hh h =>
    right
    refine ⟨_, _, flags, flags :: fs, false, w, rfl, ⟨_, ⟨len, w, flags, if st = [] then [] else flags :: st, fs.length + 1, false⟩, .opn, ?_, fun lhs _ => ?_⟩,
      h, List.suffix_cons .., by simp⟩
    · have := at_len ha
      refine ⟨rfl, rfl, rfl, rfl, by simp at this ⊢; omega, ?_⟩
      obtain ⟨tl, g1, g2⟩ := hst
      dsimp only
      split
      · rename_i h0
        subst h0
        refine ⟨flags :: fs, rfl, ?_⟩
        simp only [List.nil_append] at g1
        subst g1
        intro g hg
        rcases List.mem_cons.1 hg with rfl | hg
        · rfl
        · exact g2 g hg
      · exact ⟨tl, by rw [g1]; rfl, fun x hx => by rw [List.getLastD_cons]; exact g2 x hx⟩
    · next_step hq
      simp only [Bool.false_eq_true, if_false, if_true]
      rw [if_neg (by decide)]
      split
      · simp at hh
      · rfl
  | opts start f fs v f' w ls ho h =>
    right
    refine ⟨_, _, f', flags :: fs, false, w, rfl, ⟨_, ⟨len, w, f', flags :: st, fs.length + 1, false⟩, .opn, ?_, fun lhs _ => ?_⟩, h, ?_, by simp; omega⟩
    · have := at_len ha
      refine ⟨rfl, rfl, rfl, rfl, by simp at this ⊢; omega, ?_⟩
      obtain ⟨tl, g1, g2⟩ := hst
      exact ⟨tl, by rw [g1]; rfl, fun x hx => by rw [List.getLastD_cons]; exact g2 x hx⟩
    · simp only [List.cons_append] at hq ⊢
      next_step hq
      simp only [Bool.false_eq_true, if_false, if_true]
      rw [if_neg (by decide), readOptions_ok ho]
    · exact List.suffix_append (40 :: 63 :: v) w
  | cls start f g fs w ls h =>
    right
    obtain ⟨tl, g1, g2⟩ := hst
    have := at_len ha
    cases st with
    | nil =>
      simp only [List.nil_append] at g1
      subst g1
      have hg : g = flags := g2 g (by simp)
      subst hg
      refine ⟨_, _, g, fs, false, w, rfl, ⟨_, ⟨len, w, g, [], fs.length, false⟩, .cls, ?_, fun lhs _ => ?_⟩, h, List.suffix_cons .., by simp⟩
      · exact ⟨rfl, rfl, rfl, rfl, by simp at this ⊢; omega, fs, rfl, fun x hx => g2 x (by simp [hx])⟩
      · next_step hq
        simp only [Bool.false_eq_true, if_false, if_true, List.length_cons]
        rfl
    | cons g' st =>
      simp only [List.cons_append, List.cons.injEq] at g1
      obtain ⟨rfl, rfl⟩ := g1
      refine ⟨_, _, g, st ++ tl, false, w, rfl, ⟨_, ⟨len, w, g, st, (st ++ tl).length, false⟩, .cls, ?_, fun lhs _ => ?_⟩, h, List.suffix_cons .., by simp⟩
      · exact ⟨rfl, rfl, rfl, rfl, by simp at this ⊢; omega, tl, rfl, fun x hx => by have := g2 x hx; rwa [List.getLastD_cons] at this⟩
      · next_step hq
        simp only [Bool.false_eq_true, if_false, if_true, List.length_cons]
        rfl
  | rep start f fs v lo hi w ls hv hw h =>
    right
    simp only [List.mem_cons, List.not_mem_nil, or_false, Prod.mk.injEq] at hv
    rcases hv with ⟨rfl, rfl, rfl⟩ | ⟨rfl, rfl, rfl⟩ | ⟨rfl, rfl, rfl⟩
    · refine ⟨_, _, flags, fs, false, w, rfl, ⟨_, _, .rep _ _ _ _ (isRep_opt []).1, at_move ha (by simp), fun lhs _ => ?_⟩, h, List.suffix_cons .., by simp⟩
      simp only [List.cons_append, List.nil_append] at hq ⊢
      next_step hq
      rw [lazyTok_greedy _ _ _ hw]
      rfl
    · refine ⟨_, _, flags, fs, false, w, rfl, ⟨_, _, .rep _ _ _ _ (isRep_star []).1, at_move ha (by simp), fun lhs _ => ?_⟩, h, List.suffix_cons .., by simp⟩
      simp only [List.cons_append, List.nil_append] at hq ⊢
      next_step hq
      simp only [Bool.false_eq_true, if_false, if_true]
      repeat rw [if_neg (by decide)]
      rw [lazyTok_greedy _ _ _ hw]
    · refine ⟨_, _, flags, fs, false, w, rfl, ⟨_, _, .rep _ _ _ _ (isRep_plus []).1, at_move ha (by simp), fun lhs _ => ?_⟩, h, List.suffix_cons .., by simp⟩
      simp only [List.cons_append, List.nil_append] at hq ⊢
      next_step hq
      simp only [Bool.false_eq_true, if_false, if_true]
      repeat rw [if_neg (by decide)]
      rw [lazyTok_greedy _ _ _ hw]
  | repLazy start f fs v lo hi w ls hv h =>
    right
    simp only [List.mem_cons, List.not_mem_nil, or_false, Prod.mk.injEq] at hv
    rcases hv with ⟨rfl, rfl, rfl⟩ | ⟨rfl, rfl, rfl⟩ | ⟨rfl, rfl, rfl⟩
    · refine ⟨_, _, flags, fs, false, w, rfl, ⟨_, _, .rep _ _ _ _ (isRep_opt []).2, at_move ha (by simp; omega), fun lhs _ => ?_⟩, h, List.suffix_append [63, 63] w, by simp; omega⟩
      simp only [List.cons_append, List.nil_append] at hq ⊢
      next_step hq
      rfl
    · refine ⟨_, _, flags, fs, false, w, rfl, ⟨_, _, .rep _ _ _ _ (isRep_star []).2, at_move ha (by simp; omega), fun lhs _ => ?_⟩, h, List.suffix_append [42, 63] w, by simp; omega⟩
      simp only [List.cons_append, List.nil_append] at hq ⊢
      next_step hq
      rfl
    · refine ⟨_, _, flags, fs, false, w, rfl, ⟨_, _, .rep _ _ _ _ (isRep_plus []).2, at_move ha (by simp; omega), fun lhs _ => ?_⟩, h, List.suffix_append [43, 63] w, by simp; omega⟩
      simp only [List.cons_append, List.nil_append] at hq ⊢
      next_step hq
      rfl
  | count start f fs v lo hi w ls hv hw h =>
    right
    obtain ⟨a, b, e, g1, g2, g3⟩ := repeatN_ok hv
    refine ⟨_, _, flags, fs, false, w, rfl, ⟨_, _, .rep _ _ _ _ g1, at_move ha (by simp; omega), fun lhs _ => ?_⟩, h, ⟨123 :: v ++ [125], by simp⟩, by simp; omega⟩
    have g := g3 w
    obtain ⟨c, cs, rfl, hc⟩ := braces_dec hv
    simp only [List.cons_append] at hq g ⊢
    next_step hq
    simp only [Bool.false_eq_true, if_false, if_true]
    repeat rw [if_neg (by decide)]
    unfold openCurly
    simp only
    rw [if_neg (by omega), if_pos ((isDigit_iff c).2 hc), g, lazyTok_greedy _ _ _ hw]
    rfl
  | countLazy start f fs v lo hi w ls hv h =>
    right
    obtain ⟨a, b, e, g1, g2, g3⟩ := repeatN_ok hv
    refine ⟨_, _, flags, fs, false, w, rfl, ⟨_, _, .rep _ _ _ _ g2, at_move ha (by simp; omega), fun lhs _ => ?_⟩, h, ⟨123 :: v ++ [125, 63], by simp⟩, by simp; omega⟩
    have g := g3 (63 :: w)
    obtain ⟨c, cs, rfl, hc⟩ := braces_dec hv
    simp only [List.cons_append] at hq g ⊢
    next_step hq
    simp only [Bool.false_eq_true, if_false, if_true]
    repeat rw [if_neg (by decide)]
    unfold openCurly
    simp only
    rw [if_neg (by omega), if_pos ((isDigit_iff c).2 hc), g, lazyTok_lazy]
    rfl
  | minus start f fs w ls h =>
    right
    refine ⟨_, _, flags, fs, false, w, rfl, ⟨_, _, .minus, at_move ha (by simp; omega), fun lhs hl => ?_⟩, h, List.suffix_append [123, 45, 125] w, by simp; omega⟩
    rw [hl (.inl rfl)]
    next_step hq
    rfl
  | union start f fs w ls h =>
    right
    refine ⟨_, _, flags, fs, false, w, rfl, ⟨_, _, .union, at_move ha (by simp; omega), fun lhs hl => ?_⟩, h, List.suffix_append [123, 43, 125] w, by simp; omega⟩
    rw [hl (.inr rfl)]
    next_step hq
    rfl
  | mac start f fs name w ls hn h =>
    right
    obtain ⟨g, c, cs, rfl, hc1, hc2, hc3⟩ := macroTok_ok hn w
    refine ⟨_, _, flags, fs, false, w, rfl, ⟨_, _, .mac _, at_move ha (by simp; omega), fun lhs _ => ?_⟩, h, ⟨123 :: (c :: cs) ++ [125], by simp⟩, by simp; omega⟩
    simp only [List.cons_append] at hq g ⊢
    next_step hq
    simp only [Bool.false_eq_true, if_false, if_true]
    repeat rw [if_neg (by decide)]
    unfold openCurly
    simp only
    rw [if_neg (by omega), if_neg (by simp [hc3]), g]
    rfl

/-- `next` finds the next lexeme. -/
theorem reads_next {E : TokEnv} (hE : TokEnvOk E) (hC : CharsOk E) {start : Bool} {f : ReFlags} {fs : List ReFlags} {b : Bool} {w : List Nat}
    {ls : List Lx} {s : TkState} (h : Reads E start f fs b w ls) (hx : TextOk E w) (ha : At s start f fs b w) :
    (ls = [] ∧ ∃ s', ∀ lhs, s.next E lhs = .ok (.tok ⟨.end_, [], []⟩, s')) ∨
    ∃ l ls' f' fs' b' w', ls = l :: ls' ∧ Found E s w l ls' f' fs' b' w' := by
  obtain ⟨start', b', w', h1, h2, h3, h4, h5⟩ := leads_suffix h
  have hl : ∀ lhs, s.next E lhs = TkState.next E lhs { s with inString := b', rest := w' } := fun lhs =>
    next_leads (by rw [ha.flags, ha.string, ha.rest]; exact h1) (by rw [ha.flags]; exact h2) lhs
  have ha' : At { s with inString := b', rest := w' } start' f fs b' w' := by
    refine ⟨rfl, ha.flags, rfl, ha.parens, ?_, ha.stack⟩
    rcases h5 with ⟨rfl, rfl⟩ | ⟨rfl, h5⟩
    · exact ha.len
    · have := at_len ha
      simp only [Bool.false_eq_true, if_false]
      omega
  rcases reads_found hE hC h3 h2 (textOk_suffix hx h4) ha' with ⟨g1, s', g2⟩ | ⟨l, ls', f', fs', b'', w'', g1, ⟨x, s', g2, g3, g4⟩, g5, g6, g7⟩
  · exact .inl ⟨g1, s', fun lhs => by rw [hl, g2]⟩
  · exact .inr ⟨l, ls', f', fs', b'', w'', g1, ⟨x, s', g2, g3, fun lhs h => by rw [hl, g4 lhs h]⟩, g5, g6.trans h4,
      Nat.lt_of_lt_of_le g7 h4.length_le⟩

end Lexertl.Reading
