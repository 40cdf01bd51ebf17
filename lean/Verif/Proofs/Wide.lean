import Verif.Proofs.Slices
import Verif.Proofs.Rule
import Verif.Spec.Lex

/-
Machines of all character widths: how characters are written in the table, which
byte words the tree of a rule has, and that the words of the rule can be read off.
-/
namespace Lexertl.Wide
open Spec Slice

/-- How a symbol is written in the table. -/
def encode (tr : Traits) : Sym → List Sym
  | .ch c => if tr.compressed then (charBytes (bytesOf tr) c).map .ch else [.ch c]
  | s => [s]

/-- The characters the table accepts for a charset. -/
def accepts (tr : Traits) (t : Token) : Token := if tr.compressed then accepted tr.char24 t else t

/-- Words of the tree of a rule. -/
def words (tr : Traits) (r : Option Re) : List Sym → Prop :=
  Img (encode tr) (RMatches (r.map (Re.mapChars (accepts tr))))

/-- What is assumed of a charset. -/
def SetOk (tr : Traits) (t : Token) : Prop := Normal t ∧ t ≠ [] ∧ Within (charsOf tr - 1) t ∧
  (tr.compressed = true → tr.char24 = true → ∀ x ∈ t, FewPlanes x)

/-- Largest value of a character in the table. -/
def topOf (tr : Traits) : Nat := if tr.compressed then top tr.char24 else 255

theorem Built.mono {tr : Traits} {enc : Sym → List Sym} {L : List Sym → Prop} {n m : Nat} {b e : Bool}
    {p : PState} {res : M PState} (H : Built tr enc L n b e p res) (h : n ≤ m) : Built tr enc L m b e p res := by
  obtain ⟨p', t, a1, a2, a3, a4, a5, a6, a7⟩ := H
  exact ⟨p', t, a1, a2, a3, a4.mono h, a5, a6, a7⟩

/-- A non-empty set of characters in normal form. -/
def AnySet (tr : Traits) (t : Token) : Prop := Normal t ∧ t ≠ [] ∧ Within (charsOf tr - 1) t

theorem SetOk.any {tr : Traits} {t : Token} (h : SetOk tr t) : AnySet tr t := ⟨h.1, h.2.1, h.2.2.1⟩

theorem anySet_top {tr : Traits} {t : Token} (h : AnySet tr t) : Within (topOf tr) t := by
  intro r hr
  have := h.2.2 r hr
  unfold topOf top
  unfold charsOf at this
  cases hc : tr.compressed <;> cases h24 : tr.char24 <;> simp [hc, h24] at this ⊢ <;> omega

theorem setOk_top {tr : Traits} {t : Token} (h : SetOk tr t) : Within (topOf tr) t := anySet_top h.any

/-- One charset. -/
theorem act_set (tr : Traits) (t : Token) (ht : AnySet tr t) (p : PState) :
    Built tr (encode tr) (OneOf (accepts tr t)) (slotsOf tr t) false false p (PState.act tr (.chars t) p) := by
  have htop := anySet_top ht
  unfold topOf at htop
  cases hc : tr.compressed with
  | false =>
    simp only [PState.act, hc, Bool.false_eq_true, if_false, slotsOf, accepts] at htop ⊢
    refine (Built.range tr p t ⟨ht.1, ht.2.1, htop⟩).img ?_
    have : ∀ w, OneOf t w → w.flatMap (encode tr) = w := by
      rintro w ⟨c, _, rfl⟩
      simp [encode, hc]
    funext w; apply propext
    constructor
    · intro h; exact ⟨w, h, (this w h).symm⟩
    · rintro ⟨u, h, rfl⟩; rw [this u h]; exact h
  | true =>
    simp only [PState.act, hc, if_true, slotsOf, accepts] at htop ⊢
    obtain ⟨g1, g2, g3, g4⟩ := sliceToken_spec tr.char24 t ht.1.1 htop ht.2.1
    have hw : bytesOf tr = width tr.char24 := by simp [bytesOf, width, hc]
    have := rows_built tr (width tr.char24) (by unfold width; split <;> decide) _ g2 g1 p
    rw [hw]
    refine Built.mono (this.img ?_) (Nat.mul_le_mul_left _ g3)
    funext w; apply propext
    constructor
    · rintro ⟨bs, h, rfl⟩
      obtain ⟨c, h1, rfl⟩ := (g4 bs).1 h
      exact ⟨[.ch c], ⟨c, h1, rfl⟩, by simp [encode, hc, hw]⟩
    · rintro ⟨_, ⟨c, h1, rfl⟩, rfl⟩
      exact ⟨_, (g4 _).2 ⟨c, h1, rfl⟩, by simp [encode, hc, hw]⟩

theorem allChars_mono {P Q : Token → Prop} (h : ∀ t, P t → Q t) : ∀ r : Re, r.AllChars P → r.AllChars Q
  | .chars t, hr => h t hr
  | .bol, _ | .eol, _ => trivial
  | .seq l r, hr | .alt l r, hr => ⟨allChars_mono h l hr.1, allChars_mono h r hr.2⟩
  | .opt r _, hr | .star r _, hr | .plus r _, hr | .rep r _ _ _, hr => allChars_mono h r hr

/-- One expression. -/
theorem act_any (tr : Traits) (r : Re) (hr : r.AllChars (AnySet tr)) (hk : r.CountsOk) (p : PState) :
    Built tr (fun s => [s]) (words tr (some r)) (r.lookups (slotsOf tr)) (!r.noBol) (!r.noEol) p
      (PState.act tr r p) := by
  have := act_built tr (encode tr) rfl rfl (slotsOf tr) (AnySet tr) (accepts tr) (act_set tr) r hr hk p
  obtain ⟨p', t, a1, a2, a3, a4, a5, a6, a7⟩ := this
  refine ⟨p', t, a1, a2, a3, a4, a5, a6, fun m hm hs => ?_⟩
  rw [a7 m hm hs, img_single]
  rfl

theorem act_wide (tr : Traits) (r : Re) (hr : r.AllChars (SetOk tr)) (hk : r.CountsOk) (p : PState) :
    Built tr (fun s => [s]) (words tr (some r)) (r.lookups (slotsOf tr)) (!r.noBol) (!r.noEol) p
      (PState.act tr r p) := act_any tr r (allChars_mono (fun _ h => h.any) r hr) hk p

theorem words_none (tr : Traits) : words tr none = fun w => w = [] := by
  funext w; apply propext
  constructor
  · rintro ⟨u, h, rfl⟩
    rw [show u = [] from h]; rfl
  · rintro rfl; exact ⟨[], rfl, rfl⟩

/-! Replacing charsets. -/

theorem mapChars_noBol (g : Token → Token) (r : Re) : (r.mapChars g).noBol = r.noBol := by
  induction r <;> simp_all [Re.mapChars, Re.noBol]

theorem mapChars_noEol (g : Token → Token) (r : Re) : (r.mapChars g).noEol = r.noEol := by
  induction r <;> simp_all [Re.mapChars, Re.noEol]

theorem mapChars_bolHead (g : Token → Token) (r : Re) : (r.mapChars g).bolHead = r.bolHead := by
  induction r <;> simp_all [Re.mapChars, Re.bolHead, mapChars_noBol]

theorem mapChars_all {P Q : Token → Prop} (g : Token → Token) (h : ∀ t, P t → Q (g t)) :
    ∀ r : Re, r.AllChars P → (r.mapChars g).AllChars Q
  | .chars t, hr => h t hr
  | .bol, _ | .eol, _ => trivial
  | .seq l r, hr | .alt l r, hr => ⟨mapChars_all g h l hr.1, mapChars_all g h r hr.2⟩
  | .opt r _, hr | .star r _, hr | .plus r _, hr | .rep r _ _ _, hr => mapChars_all g h r hr

theorem pow_forall {L : List Sym → Prop} {Q : Sym → Prop} (h : ∀ w, L w → ∀ s ∈ w, Q s) :
    ∀ k w, Pow L k w → ∀ s ∈ w, Q s
  | 0, w, hw => by rw [show w = [] from hw]; simp
  | k + 1, w, hw => by
    obtain ⟨u, v, rfl, h1, h2⟩ := hw
    intro s hs
    rcases List.mem_append.1 hs with hs | hs
    · exact h u h1 s hs
    · exact pow_forall h k v h2 s hs

/-- Symbols in the words of an expression. -/
theorem matches_forall {P : Token → Prop} {Q : Sym → Prop} (hb : Q .bol) (he : Q .eol)
    (h : ∀ t c, P t → Mem c t → Q (.ch c)) (r : Re) (hr : r.AllChars P) : ∀ w, r.Matches w → ∀ s ∈ w, Q s := by
  induction r with
  | chars t =>
    rintro w ⟨c, hc, rfl⟩ s hs
    simp only [List.mem_singleton] at hs
    subst hs
    exact h t c hr hc
  | bol => rintro w rfl s hs; simp only [List.mem_singleton] at hs; subst hs; exact hb
  | eol => rintro w rfl s hs; simp only [List.mem_singleton] at hs; subst hs; exact he
  | seq l r ihl ihr =>
    rintro w ⟨u, v, rfl, h1, h2⟩ s hs
    rcases List.mem_append.1 hs with hs | hs
    · exact ihl hr.1 u h1 s hs
    · exact ihr hr.2 v h2 s hs
  | alt l r ihl ihr =>
    rintro w (h1 | h1)
    · exact ihl hr.1 w h1
    · exact ihr hr.2 w h1
  | opt r _ ih =>
    rintro w (rfl | h1)
    · simp
    · exact ih hr w h1
  | star r _ ih => rintro w ⟨k, hw⟩; exact pow_forall (ih hr) k w hw
  | plus r _ ih => rintro w ⟨k, _, hw⟩; exact pow_forall (ih hr) k w hw
  | rep r _ _ _ ih => rintro w ⟨k, _, _, hw⟩; exact pow_forall (ih hr) k w hw

theorem pow_congr {L K : List Sym → Prop} {Q : Sym → Prop} (h : ∀ w, (∀ s ∈ w, Q s) → (L w ↔ K w)) :
    ∀ k w, (∀ s ∈ w, Q s) → (Pow L k w ↔ Pow K k w)
  | 0, w, _ => Iff.rfl
  | k + 1, w, hw => by
    constructor
    · rintro ⟨u, v, rfl, h1, h2⟩
      exact ⟨u, v, rfl, (h u fun s hs => hw s (by simp [hs])).1 h1,
        (pow_congr h k v fun s hs => hw s (by simp [hs])).1 h2⟩
    · rintro ⟨u, v, rfl, h1, h2⟩
      exact ⟨u, v, rfl, (h u fun s hs => hw s (by simp [hs])).2 h1,
        (pow_congr h k v fun s hs => hw s (by simp [hs])).2 h2⟩

/-- Charsets that agree on the symbols of the word give the same matches. -/
theorem mapChars_matches {P : Token → Prop} {Q : Sym → Prop} (g : Token → Token)
    (h : ∀ t c, P t → Q (.ch c) → (Mem c (g t) ↔ Mem c t)) (r : Re) (hr : r.AllChars P) :
    ∀ w, (∀ s ∈ w, Q s) → ((r.mapChars g).Matches w ↔ r.Matches w) := by
  induction r with
  | chars t =>
    intro w hw
    constructor
    · rintro ⟨c, hc, rfl⟩; exact ⟨c, (h t c hr (hw _ (by simp))).1 hc, rfl⟩
    · rintro ⟨c, hc, rfl⟩; exact ⟨c, (h t c hr (hw _ (by simp))).2 hc, rfl⟩
  | bol => intro w _; exact Iff.rfl
  | eol => intro w _; exact Iff.rfl
  | seq l r ihl ihr =>
    intro w hw
    constructor
    · rintro ⟨u, v, rfl, h1, h2⟩
      exact ⟨u, v, rfl, (ihl hr.1 u fun s hs => hw s (by simp [hs])).1 h1,
        (ihr hr.2 v fun s hs => hw s (by simp [hs])).1 h2⟩
    · rintro ⟨u, v, rfl, h1, h2⟩
      exact ⟨u, v, rfl, (ihl hr.1 u fun s hs => hw s (by simp [hs])).2 h1,
        (ihr hr.2 v fun s hs => hw s (by simp [hs])).2 h2⟩
  | alt l r ihl ihr => intro w hw; exact or_congr (ihl hr.1 w hw) (ihr hr.2 w hw)
  | opt r _ ih => intro w hw; exact or_congr Iff.rfl (ih hr w hw)
  | star r _ ih => intro w hw; exact exists_congr fun k => pow_congr (ih hr) k w hw
  | plus r _ ih => intro w hw; exact exists_congr fun k => and_congr_right fun _ => pow_congr (ih hr) k w hw
  | rep r _ _ _ ih =>
    intro w hw
    exact exists_congr fun k => and_congr_right fun _ => and_congr_right fun _ => pow_congr (ih hr) k w hw

/-- A symbol without its character. -/
def kind : Sym → Sym
  | .ch _ => .ch 0
  | s => s

theorem pow_kind {L K : List Sym → Prop} (h : ∀ w, L w → ∃ v, K v ∧ v.map kind = w.map kind) :
    ∀ k w, Pow L k w → ∃ v, Pow K k v ∧ v.map kind = w.map kind
  | 0, w, hw => ⟨[], rfl, by rw [show w = [] from hw]⟩
  | k + 1, w, hw => by
    obtain ⟨u, v, rfl, h1, h2⟩ := hw
    obtain ⟨u', g1, g2⟩ := h u h1
    obtain ⟨v', g3, g4⟩ := pow_kind h k v h2
    exact ⟨u' ++ v', ⟨u', v', rfl, g1, g3⟩, by simp [g2, g4]⟩

/-- Replacing non-empty charsets keeps the shapes of the words. -/
theorem mapChars_kind {P : Token → Prop} (g k : Token → Token) (h : ∀ t, P t → ∃ c, Mem c (k t)) (r : Re)
    (hr : r.AllChars P) : ∀ w, (r.mapChars g).Matches w → ∃ v, (r.mapChars k).Matches v ∧ v.map kind = w.map kind := by
  induction r with
  | chars t =>
    rintro w ⟨c, hc, rfl⟩
    obtain ⟨d, hd⟩ := h t hr
    exact ⟨[.ch d], ⟨d, hd, rfl⟩, rfl⟩
  | bol => rintro w rfl; exact ⟨_, rfl, rfl⟩
  | eol => rintro w rfl; exact ⟨_, rfl, rfl⟩
  | seq l r ihl ihr =>
    rintro w ⟨u, v, rfl, h1, h2⟩
    obtain ⟨u', g1, g2⟩ := ihl hr.1 u h1
    obtain ⟨v', g3, g4⟩ := ihr hr.2 v h2
    exact ⟨u' ++ v', ⟨u', v', rfl, g1, g3⟩, by simp [g2, g4]⟩
  | alt l r ihl ihr =>
    rintro w (h1 | h1)
    · obtain ⟨v, g1, g2⟩ := ihl hr.1 w h1; exact ⟨v, .inl g1, g2⟩
    · obtain ⟨v, g1, g2⟩ := ihr hr.2 w h1; exact ⟨v, .inr g1, g2⟩
  | opt r _ ih =>
    rintro w (rfl | h1)
    · exact ⟨[], .inl rfl, rfl⟩
    · obtain ⟨v, g1, g2⟩ := ih hr w h1; exact ⟨v, .inr g1, g2⟩
  | star r _ ih =>
    rintro w ⟨n, hw⟩
    obtain ⟨v, g1, g2⟩ := pow_kind (ih hr) n w hw
    exact ⟨v, ⟨n, g1⟩, g2⟩
  | plus r _ ih =>
    rintro w ⟨n, h1, hw⟩
    obtain ⟨v, g1, g2⟩ := pow_kind (ih hr) n w hw
    exact ⟨v, ⟨n, h1, g1⟩, g2⟩
  | rep r _ _ _ ih =>
    rintro w ⟨n, h1, h2, hw⟩
    obtain ⟨v, g1, g2⟩ := pow_kind (ih hr) n w hw
    exact ⟨v, ⟨n, h1, h2, g1⟩, g2⟩

theorem mapChars_id (r : Re) : r.mapChars id = r := by
  induction r <;> simp_all [Re.mapChars]

/-! The encoding. -/

/-- A symbol whose character fits the bytes. -/
def Fits (tr : Traits) : Sym → Prop
  | .ch c => c ≤ topOf tr
  | _ => True

theorem encode_inj (tr : Traits) {s t : Sym} (hs : Fits tr s) (ht : Fits tr t) {a b : List Sym}
    (h : encode tr s ++ a = encode tr t ++ b) : s = t ∧ a = b := by
  cases hc : tr.compressed with
  | false =>
    have e : ∀ s, encode tr s = [s] := by intro s; cases s <;> simp [encode, hc]
    rw [e, e] at h
    injection h with h1 h2
    exact ⟨h1, h2⟩
  | true =>
    cases h24 : tr.char24 with
    | false =>
      have hb : bytesOf tr = 2 := by simp [bytesOf, hc, h24]
      have htop : topOf tr = 65535 := by simp [topOf, top, hc, h24]
      cases s <;> cases t <;> simp [encode, hc, hb, charBytes2] at h ⊢ <;> try exact h
      rename_i c d
      simp only [Fits, htop] at hs ht
      exact ⟨by omega, h.2.2⟩
    | true =>
      have hb : bytesOf tr = 3 := by simp [bytesOf, hc, h24]
      have htop : topOf tr = 16777215 := by simp [topOf, top, hc, h24]
      cases s <;> cases t <;> simp [encode, hc, hb, charBytes3] at h ⊢ <;> try exact h
      rename_i c d
      simp only [Fits, htop] at hs ht
      exact ⟨by omega, h.2.2.2⟩

theorem encode_ne (tr : Traits) (s : Sym) : encode tr s ≠ [] := by
  cases s with
  | ch c =>
    cases hc : tr.compressed with
    | false => simp [encode, hc]
    | true => cases h24 : tr.char24 <;> simp [encode, hc, bytesOf, h24, charBytes2, charBytes3]
  | bol => simp [encode]
  | eol => simp [encode]

theorem flatMap_inj (tr : Traits) : ∀ {u v : List Sym}, (∀ s ∈ u, Fits tr s) → (∀ s ∈ v, Fits tr s) →
    u.flatMap (encode tr) = v.flatMap (encode tr) → u = v
  | [], [], _, _, _ => rfl
  | [], t :: v, _, _, h => by
    rw [List.flatMap_nil, List.flatMap_cons] at h
    exact absurd (List.append_eq_nil_iff.1 h.symm).1 (encode_ne tr t)
  | s :: u, [], _, _, h => by
    rw [List.flatMap_nil, List.flatMap_cons] at h
    exact absurd (List.append_eq_nil_iff.1 h).1 (encode_ne tr s)
  | s :: u, t :: v, hu, hv, h => by
    rw [List.flatMap_cons, List.flatMap_cons] at h
    obtain ⟨rfl, h2⟩ := encode_inj tr (hu s (by simp)) (hv t (by simp)) h
    rw [flatMap_inj tr (fun x hx => hu x (by simp [hx])) (fun x hx => hv x (by simp [hx])) h2]

/-! The charsets of the table. -/

theorem accepts_top {tr : Traits} {t : Token} (h : SetOk tr t) : Within (topOf tr) (accepts tr t) := by
  have htop := setOk_top h
  intro x hx
  unfold accepts at hx
  cases hc : tr.compressed with
  | false => simp only [hc, Bool.false_eq_true, if_false] at hx; exact htop x hx
  | true =>
    simp only [hc, if_true, accepted] at hx
    cases h24 : tr.char24 with
    | false => simp only [h24, Bool.false_eq_true, if_false] at hx; exact htop x hx
    | true =>
      simp only [h24, if_true, List.mem_flatMap] at hx
      obtain ⟨r, hr, hx⟩ := hx
      have e : topOf tr = 16777215 := by simp [topOf, top, hc, h24]
      rw [e] at htop ⊢
      exact widen24_within r (h.1.1 r hr) (htop r hr) x hx

theorem widen24_two {r : Range} (h : r.2 / 65536 ≤ r.1 / 65536 + 1) : widen24 r = [r] := by
  rw [widen24, if_pos h]

theorem widen24_mem {r : Range} (hr : r.1 ≤ r.2) (hw : r.2 < 0x110000) (h : FewPlanes r) {c : Nat} (hc : c < 0x110000) :
    Mem c (widen24 r) ↔ r.1 ≤ c ∧ c ≤ r.2 := by
  rcases h with h | ⟨h1, h2⟩
  · rw [widen24_two h]; simp [Mem]
  · rw [widen24, if_neg (by omega)]
    have e1 : r.1 / 256 % 256 = 0 := by omega
    have e2 : r.2 / 256 % 256 = 255 := by omega
    simp only [e1, e2]
    rw [show toByte ((0 : Nat) + 1) = 1 from by decide, show toByte ((255 : Nat) - 1) = 254 from by decide]
    simp only [Mem, List.mem_cons, List.not_mem_nil, or_false, exists_eq_or_imp, exists_eq_left]
    omega

theorem accepts_mem {tr : Traits} {t : Token} (h : SetOk tr t) {c : Nat} (hc : c < charsOf tr) :
    Mem c (accepts tr t) ↔ Mem c t := by
  unfold accepts
  cases hcm : tr.compressed with
  | false => simp
  | true =>
    simp only [if_true, accepted]
    cases h24 : tr.char24 with
    | false => simp
    | true =>
      have e : charsOf tr = 0x110000 := by simp [charsOf, hcm, h24]
      have hw := h.2.2.1
      rw [e] at hc hw
      simp only [if_true]
      constructor
      · rintro ⟨x, hx, h1⟩
        obtain ⟨r, hr, hx⟩ := List.mem_flatMap.1 hx
        have hw' : r.2 ≤ 0x110000 - 1 := hw r hr
        exact ⟨r, hr, (widen24_mem (h.1.1 r hr) (by omega) (h.2.2.2 hcm h24 r hr) hc).1 ⟨x, hx, h1⟩⟩
      · rintro ⟨r, hr, h1⟩
        have hw' : r.2 ≤ 0x110000 - 1 := hw r hr
        obtain ⟨x, hx, h2⟩ := (widen24_mem (h.1.1 r hr) (by omega) (h.2.2.2 hcm h24 r hr) hc).2 h1
        exact ⟨x, List.mem_flatMap.2 ⟨r, hr, hx⟩, h2⟩

theorem set_some {tr : Traits} {t : Token} (h : SetOk tr t) : ∃ c, c < charsOf tr ∧ Mem c t := by
  obtain ⟨r, hr⟩ := List.exists_mem_of_ne_nil _ h.2.1
  have h1 := h.1.1 r hr
  have h2 : r.2 ≤ charsOf tr - 1 := h.2.2.1 r hr
  have h3 : 0 < charsOf tr := by unfold charsOf; split <;> (try split) <;> decide
  exact ⟨r.1, by omega, r, hr, Nat.le_refl _, h1⟩

/-- A symbol whose character is one of the machine's. -/
def Known (tr : Traits) : Sym → Prop
  | .ch c => c < charsOf tr
  | _ => True

theorem Known.fits {tr : Traits} {s : Sym} (h : Known tr s) : Fits tr s := by
  cases s with
  | ch c =>
    simp only [Known, Fits, charsOf, topOf, top] at *
    cases hc : tr.compressed <;> cases h24 : tr.char24 <;> simp [hc, h24] at h ⊢ <;> omega
  | bol => trivial
  | eol => trivial

/-- The byte words of a rule are the encoded words of the rule. -/
theorem words_iff {tr : Traits} {e : Option Re} (he : CharSets tr e) {v : List Sym} (hv : ∀ s ∈ v, Known tr s) :
    words tr e (v.flatMap (encode tr)) ↔ RMatches e v := by
  cases e with
  | none =>
    rw [words_none]
    constructor
    · intro h
      exact flatMap_inj tr (fun s hs => (hv s hs).fits) (by simp) h
    · intro h; rw [show v = [] from h]; rfl
  | some r =>
    have hr : r.AllChars (SetOk tr) := he
    have key : (r.mapChars (accepts tr)).Matches v ↔ r.Matches v :=
      mapChars_matches (Q := Known tr) _ (fun t c ht hc => accepts_mem ht hc) r hr v hv
    constructor
    · rintro ⟨u, hu, h⟩
      have hu' : (r.mapChars (accepts tr)).Matches u := hu
      have hfit : ∀ s ∈ u, Fits tr s :=
        matches_forall (P := fun t => Within (topOf tr) t) (Q := Fits tr) trivial trivial
          (fun t c ht ⟨x, hx, _, h2⟩ => Nat.le_trans h2 (ht x hx)) _
          (mapChars_all _ (fun t ht => accepts_top ht) r hr) u hu'
      have := flatMap_inj tr (fun s hs => (hv s hs).fits) hfit h
      subst this
      exact key.1 hu'
    · intro h
      exact ⟨v, key.2 h, rfl⟩

/-- Whether some word of a rule begins with the start of a line. -/
theorem words_anch {tr : Traits} {e : Option Re} (he : CharSets tr e) :
    (∃ v, words tr e (.bol :: v)) ↔ ∃ v, RMatches e (.bol :: v) := by
  cases e with
  | none =>
    rw [words_none]
    constructor
    · rintro ⟨v, h⟩; cases h
    · rintro ⟨v, h⟩; cases h
  | some r =>
    have hr : r.AllChars (SetOk tr) := he
    have ne : ∀ t, SetOk tr t → (∃ c, Mem c (accepts tr t)) ∧ ∃ c, Mem c (id t) := by
      intro t ht
      obtain ⟨c, h1, h2⟩ := set_some ht
      exact ⟨⟨c, (accepts_mem ht h1).2 h2⟩, c, h2⟩
    have hd : ∀ (u v : List Sym), u.map kind = v.map kind → (∃ w, v = .bol :: w) → ∃ w, u = .bol :: w := by
      rintro u v h ⟨w, rfl⟩
      match u, h with
      | .bol :: u, _ => exact ⟨u, rfl⟩
      | [], h => simp at h
      | .ch c :: u, h => simp [kind] at h
      | .eol :: u, h => simp [kind] at h
    constructor
    · rintro ⟨v, u, hu, h⟩
      have hu' : (r.mapChars (accepts tr)).Matches u := hu
      obtain ⟨w, h1, h2⟩ := mapChars_kind (accepts tr) id (fun t ht => (ne t ht).2) r hr u hu'
      rw [mapChars_id] at h1
      have : ∃ w, u = .bol :: w := by
        match u, h with
        | .bol :: u, _ => exact ⟨u, rfl⟩
        | [], h => simp at h
        | .eol :: u, h => simp [encode] at h
        | .ch c :: u, h =>
          cases hc : tr.compressed with
          | false => simp [encode, hc] at h
          | true => cases h24 : tr.char24 <;> simp [encode, hc, bytesOf, h24, charBytes2, charBytes3] at h
      obtain ⟨w', rfl⟩ := hd _ _ h2 this
      exact ⟨w', h1⟩
    · rintro ⟨v, hv⟩
      have hv' : (r.mapChars id).Matches (.bol :: v) := by rw [mapChars_id]; exact hv
      obtain ⟨w, h1, h2⟩ := mapChars_kind id (accepts tr) (fun t ht => (ne t ht).1) r hr _ hv'
      obtain ⟨w', rfl⟩ := hd _ _ h2 ⟨v, rfl⟩
      exact ⟨w'.flatMap (encode tr), _, h1, rfl⟩

theorem encode_bol (tr : Traits) {s : Sym} (h : Sym.bol ∈ encode tr s) : s = .bol := by
  cases s with
  | ch c =>
    simp only [encode] at h
    split at h
    · simp at h
    · simp at h
  | bol => rfl
  | eol => simp [encode] at h

theorem words_tail {tr : Traits} {e : Option Re} (he : ROpt (fun r => r.bolHead = true) e) {w : List Sym}
    (hw : words tr e w) : Sym.bol ∉ w.tail := by
  obtain ⟨u, hu, rfl⟩ := hw
  cases e with
  | none => rw [show u = [] from hu]; simp
  | some r =>
    have h1 : (r.mapChars (accepts tr)).bolHead = true := by rw [mapChars_bolHead]; exact he
    have h2 := bolHead_words h1 (show (r.mapChars (accepts tr)).Matches u from hu)
    cases u with
    | nil => simp
    | cons s u =>
      rw [List.flatMap_cons]
      intro h
      have hm : Sym.bol ∈ (encode tr s).tail ∨ Sym.bol ∈ u.flatMap (encode tr) := by
        cases hs : encode tr s with
        | nil => exact absurd hs (encode_ne tr s)
        | cons a l => rw [hs] at h; simpa using h
      rcases hm with hm | hm
      · have := encode_bol tr (List.mem_of_mem_tail hm)
        subst this
        simp [encode] at hm
      · obtain ⟨x, hx, hx'⟩ := List.mem_flatMap.1 hm
        rw [encode_bol tr hx'] at hx
        exact h2 hx

theorem slots_lookups {tr : Traits} {r : Re} (h : r.noEol = true) : r.lookups (slotsOf tr) = r.slots tr := by
  induction r with
  | chars => rfl
  | bol => rfl
  | eol => cases h
  | seq l r ihl ihr | alt l r ihl ihr =>
    simp only [Re.noEol, Bool.and_eq_true] at h
    simp only [Re.lookups, Re.slots, ihl h.1, ihr h.2]
  | opt r _ ih | star r _ ih | plus r _ ih | rep r _ _ _ ih => exact ih h

end Lexertl.Wide
