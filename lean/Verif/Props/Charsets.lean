import Verif.Proofs.StringToken

/-
Properties C03-C07: charset algebra (`string_token.hpp`).
`Spec.Mem c t`: character `c` lies in a range of `t`.
`Spec.Normal t`: non-empty ranges in increasing order, neither overlapping nor
touching.
-/
namespace Lexertl.Props
open Spec

/-- C03: inserting a range into a well-formed token adds exactly the characters
of the range and keeps the token well formed. -/
theorem C03_insert_range_is_union (t : Token) (r : Range) (ht : Normal t) (hr : r.1 ≤ r.2) :
    Normal (t.insert r) ∧ ∀ c, Mem c (t.insert r) ↔ Mem c t ∨ (r.1 ≤ c ∧ c ≤ r.2) :=
  ⟨Token.insert_normal t r ht hr, Token.mem_insert t r ht hr⟩

example : Normal [(10, 20), (30, 40), (50, 60)] ∧ (21, 49).1 ≤ (21, 49).2 ∧
    Token.insert [(10, 20), (30, 40), (50, 60)] (21, 49) = [(10, 60)] := by decide

/-- C03: inserting a whole token adds exactly its characters. -/
theorem C03_insert_token_is_union (t s : Token) (ht : Normal t) (hs : Normal s) :
    Normal (t.insertToken s) ∧ ∀ c, Mem c (t.insertToken s) ↔ Mem c t ∨ Mem c s :=
  Token.insertToken_spec t s ht hs.1

example : Normal [(1, 2), (8, 9)] ∧ Normal [(3, 4), (20, 20)] ∧
    Token.insertToken [(1, 2), (8, 9)] [(3, 4), (20, 20)] = [(1, 4), (8, 9), (20, 20)] := by decide

/-- C03: the constructors give a well-formed token holding exactly the given
characters. -/
theorem C03_constructors (a b : Nat) (h : a ≤ b) :
    (Normal (Token.ofRange a b) ∧ ∀ c, Mem c (Token.ofRange a b) ↔ a ≤ c ∧ c ≤ b) ∧
    (Normal (Token.ofChar a) ∧ ∀ c, Mem c (Token.ofChar a) ↔ c = a) := by
  have h1 := C03_insert_range_is_union [] (a, b) Token.normal_nil h
  have h2 := C03_insert_range_is_union [] (a, a) Token.normal_nil (Nat.le_refl a)
  refine ⟨⟨h1.1, fun c => (h1.2 c).trans ?_⟩, ⟨h2.1, fun c => (h2.2 c).trans ?_⟩⟩
  · simp [Token.mem_nil]
  · simp [Token.mem_nil]; omega

/-- C04: `negate` is complement in the alphabet `0..max`. -/
theorem C04_negate_is_complement (max : Nat) (t : Token) (ht : Normal t) (hw : Within max t) :
    Normal (t.negate max) ∧ Within max (t.negate max) ∧
    ∀ c, Mem c (t.negate max) ↔ c ≤ max ∧ ¬ Mem c t := by
  have h := Token.negate_spec max t ht hw
  exact ⟨h.1, (Token.within_iff max _ h.1.1).2 fun c hc => ((h.2 c).1 hc).1, h.2⟩

example : Normal [(0, 9), (11, 255)] ∧ Within 255 [(0, 9), (11, 255)] ∧
    Token.negate 255 [(0, 9), (11, 255)] = [(10, 10)] := by decide

/-- C04: negating twice gives back the same token (not only the same set). -/
theorem C04_negate_involutive (max : Nat) (t : Token) (ht : Normal t) (hw : Within max t) :
    (t.negate max).negate max = t := by
  have h1 := C04_negate_is_complement max t ht hw
  have h2 := C04_negate_is_complement max _ h1.1 h1.2.1
  refine Token.normal_ext _ _ h2.1 ht fun c => ?_
  rw [h2.2.2 c, h1.2.2 c]
  constructor
  · rintro ⟨h, h'⟩
    exact Decidable.byContradiction fun hn => h' ⟨h, hn⟩
  · intro h
    exact ⟨(Token.within_iff max t ht.1).1 hw c h, fun h' => h'.2 h⟩

/-- C04: `any()` tells whether the token is the whole alphabet. -/
theorem C04_any_iff_full (max : Nat) (t : Token) (ht : Normal t) (hw : Within max t) :
    t.any max = true ↔ ∀ c, c ≤ max → Mem c t := by
  constructor
  · intro h c hc
    match t, h with
    | [r], h =>
      simp only [Token.any, Bool.and_eq_true, beq_iff_eq] at h
      exact ⟨r, by simp, by omega, by omega⟩
  · intro h
    have hf : Normal [(0, max)] := by simp [Normal]
    have : t = [(0, max)] := Token.normal_ext t _ ht hf fun c =>
      ⟨fun hc => ⟨(0, max), by simp, Nat.zero_le _, (Token.within_iff max t ht.1).1 hw c hc⟩,
       fun hc => h c (by obtain ⟨r, hr, _, h2⟩ := hc; simp at hr; subst hr; exact h2)⟩
    subst this
    simp [Token.any]

example : Token.any 255 [(0, 255)] = true ∧ Token.any 255 [(0, 9), (11, 255)] = false := by decide

/-- C05: `l.intersect(r, overlap)` with an empty `overlap` always terminates and
leaves `l \ r`, `r \ l` and `l ∩ r`. -/
theorem C05_intersect_splits (l r : Token) (hl : Normal l) (hr : Normal r) :
    ∃ l' r' o, Token.intersect l r [] = some (l', r', o) ∧
      Normal l' ∧ Normal r' ∧ Normal o ∧
      ∀ c, (Mem c l' ↔ Mem c l ∧ ¬ Mem c r) ∧ (Mem c r' ↔ Mem c r ∧ ¬ Mem c l) ∧
        (Mem c o ↔ Mem c l ∧ Mem c r) := by
  obtain ⟨l', r', o, e, n1, n2, n3, h⟩ := Token.intersect_spec l r [] hl hr Token.normal_nil
  refine ⟨l', r', o, e, n1, n2, n3, fun c => ?_⟩
  have := h c
  simpa [Token.mem_nil] using this

example : Normal [(0, 100)] ∧ Normal [(10, 20), (30, 40), (90, 200)] ∧
    Token.intersect [(0, 100)] [(10, 20), (30, 40), (90, 200)] [] =
      some ([(0, 9), (21, 29), (41, 89)], [(101, 200)], [(10, 20), (30, 40), (90, 100)]) := by decide

/-- C06: `l.remove(r)` always terminates and is exact set difference. -/
theorem C06_remove_is_difference (l r : Token) (hl : Normal l) (hr : Normal r) :
    ∃ l', Token.remove l r = some l' ∧ Normal l' ∧ ∀ c, Mem c l' ↔ Mem c l ∧ ¬ Mem c r :=
  Token.remove_spec l r hl hr

example : Normal [(97, 122)] ∧ Normal [(101, 101), (105, 107)] ∧
    Token.remove [(97, 122)] [(101, 101), (105, 107)] =
      some [(97, 100), (102, 104), (108, 122)] := by decide

/-- The tokens a program can build with the public operations (alphabet `0..max`). -/
inductive Built (max : Nat) : Token → Prop
  | empty : Built max []
  | insert {t} (r : Range) (hr : r.1 ≤ r.2) (hm : r.2 ≤ max) : Built max t → Built max (t.insert r)
  | insertToken {t s} : Built max t → Built max s → Built max (t.insertToken s)
  | negate {t} : Built max t → Built max (t.negate max)
  | remove {t s t'} : Built max t → Built max s → Token.remove t s = some t' → Built max t'
  | intersectL {l r l' r' o} : Built max l → Built max r →
      Token.intersect l r [] = some (l', r', o) → Built max l'
  | intersectR {l r l' r' o} : Built max l → Built max r →
      Token.intersect l r [] = some (l', r', o) → Built max r'
  | intersectO {l r l' r' o} : Built max l → Built max r →
      Token.intersect l r [] = some (l', r', o) → Built max o

/-- C03-C06: every token built through the API is well formed and within the
alphabet, whatever the history of operations. -/
theorem C07_built_wellformed (max : Nat) (t : Token) (h : Built max t) :
    Normal t ∧ Within max t := by
  have W : ∀ t : Token, Normal t → (∀ c, Mem c t → c ≤ max) → Normal t ∧ Within max t :=
    fun t ht h => ⟨ht, (Token.within_iff max t ht.1).2 h⟩
  have V : ∀ t : Token, Normal t ∧ Within max t → ∀ c, Mem c t → c ≤ max :=
    fun t ht => (Token.within_iff max t ht.1.1).1 ht.2
  induction h with
  | empty => exact ⟨Token.normal_nil, by simp [Within]⟩
  | @insert t r hr hm _ ih =>
    have := C03_insert_range_is_union t r ih.1 hr
    refine W _ this.1 fun c hc => ?_
    rcases (this.2 c).1 hc with h | h
    · exact V _ ih c h
    · omega
  | @insertToken t s _ _ ih1 ih2 =>
    have := C03_insert_token_is_union t s ih1.1 ih2.1
    refine W _ this.1 fun c hc => ?_
    rcases (this.2 c).1 hc with h | h
    · exact V _ ih1 c h
    · exact V _ ih2 c h
  | @negate t _ ih =>
    have := C04_negate_is_complement max t ih.1 ih.2
    exact ⟨this.1, this.2.1⟩
  | @remove t s t' _ _ e ih1 ih2 =>
    obtain ⟨x, ex, n, m⟩ := C06_remove_is_difference t s ih1.1 ih2.1
    rw [e] at ex; cases ex
    exact W _ n fun c hc => V _ ih1 c ((m c).1 hc).1
  | @intersectL l r l' r' o _ _ e ih1 ih2 =>
    obtain ⟨x, y, z, ex, n1, n2, n3, m⟩ := C05_intersect_splits l r ih1.1 ih2.1
    rw [e] at ex; cases ex
    exact W _ n1 fun c hc => V _ ih1 c ((m c).1.1 hc).1
  | @intersectR l r l' r' o _ _ e ih1 ih2 =>
    obtain ⟨x, y, z, ex, n1, n2, n3, m⟩ := C05_intersect_splits l r ih1.1 ih2.1
    rw [e] at ex; cases ex
    exact W _ n2 fun c hc => V _ ih2 c ((m c).2.1.1 hc).1
  | @intersectO l r l' r' o _ _ e ih1 ih2 =>
    obtain ⟨x, y, z, ex, n1, n2, n3, m⟩ := C05_intersect_splits l r ih1.1 ih2.1
    rw [e] at ex; cases ex
    exact W _ n3 fun c hc => V _ ih1 c ((m c).2.2.1 hc).1

/-- C07: two tokens built by any two histories are the same vector of ranges
(so compare equal) exactly when they contain the same characters. -/
theorem C07_equality_is_set_equality (max : Nat) (s t : Token)
    (hs : Built max s) (ht : Built max t) : s = t ↔ ∀ c, Mem c s ↔ Mem c t := by
  constructor
  · rintro rfl c; exact Iff.rfl
  · exact Token.normal_ext s t (C07_built_wellformed max s hs).1 (C07_built_wellformed max t ht).1

example : Built 255 (Token.negate 255 (Token.insert [] (10, 20))) ∧
    Built 255 (Token.insert (Token.insert [] (21, 255)) (0, 9)) ∧
    Token.negate 255 (Token.insert [] (10, 20)) = Token.insert (Token.insert [] (21, 255)) (0, 9) :=
  ⟨.negate (.insert _ (by decide) (by decide) .empty),
   .insert _ (by decide) (by decide) (.insert _ (by decide) (by decide) .empty), by decide⟩

end Lexertl.Props
