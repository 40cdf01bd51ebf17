import Verif.Spec.Classes
import Verif.Props.Lookahead
import Verif.Props.Regexes

/-
C74: characters that no rule tells apart.
-/
namespace Lexertl.Props
open Spec Reading

namespace Classes

/-- A replacement of characters, for the symbols of a text. -/
def sym (g : Nat → Nat) : Sym → Sym
  | .ch c => .ch (g c)
  | .bol => .bol
  | .eol => .eol

theorem pow_map {L : List Sym → Prop} {g : Nat → Nat} (h : ∀ w, L (w.map (sym g)) ↔ L w) : ∀ k w, Spec.Pow L k (w.map (sym g)) ↔ Spec.Pow L k w := by
  intro k
  induction k with
  | zero => intro w; simp only [Spec.Pow, List.map_eq_nil_iff]
  | succ k ih =>
    intro w
    constructor
    · rintro ⟨u, v, h1, h2, h3⟩
      obtain ⟨u', v', rfl, rfl, rfl⟩ := List.map_eq_append_iff.1 h1
      exact ⟨u', v', rfl, (h _).1 h2, (ih _).1 h3⟩
    · rintro ⟨u, v, rfl, h2, h3⟩
      exact ⟨_, _, List.map_append, (h _).2 h2, (ih _).2 h3⟩

theorem matches_map {g : Nat → Nat} : ∀ (e : Re), (e.AllChars fun t => ∀ c, Mem c t ↔ Mem (g c) t) → ∀ w, e.Matches (w.map (sym g)) ↔ e.Matches w := by
  intro e
  induction e with
  | chars t =>
    intro h w
    constructor
    · rintro ⟨c, h1, h2⟩
      match w, h2 with
      | [.ch d], h2 =>
        cases h2
        exact ⟨d, (h d).2 h1, rfl⟩
    · rintro ⟨c, h1, rfl⟩
      exact ⟨g c, (h c).1 h1, rfl⟩
  | bol =>
    intro h w
    constructor
    · intro h2
      match w, h2 with
      | [.bol], h2 => rfl
    · rintro rfl; rfl
  | eol =>
    intro h w
    constructor
    · intro h2
      match w, h2 with
      | [.eol], h2 => rfl
    · rintro rfl; rfl
  | seq l r ihl ihr =>
    intro h w
    constructor
    · rintro ⟨u, v, h1, h2, h3⟩
      obtain ⟨u', v', rfl, rfl, rfl⟩ := List.map_eq_append_iff.1 h1
      exact ⟨u', v', rfl, (ihl h.1 _).1 h2, (ihr h.2 _).1 h3⟩
    · rintro ⟨u, v, rfl, h2, h3⟩
      exact ⟨_, _, List.map_append, (ihl h.1 _).2 h2, (ihr h.2 _).2 h3⟩
  | alt l r ihl ihr => intro h w; exact or_congr (ihl h.1 w) (ihr h.2 w)
  | opt r z ih => intro h w; exact or_congr List.map_eq_nil_iff (ih h w)
  | star r z ih => intro h w; exact exists_congr fun k => pow_map (ih h) k w
  | plus r z ih => intro h w; exact exists_congr fun k => and_congr_right fun _ => pow_map (ih h) k w
  | rep r lo hi z ih => intro h w; exact exists_congr fun k => and_congr_right fun _ => and_congr_right fun _ => pow_map (ih h) k w

theorem text_map (g : Nat → Nat) (inp : List Nat) (p k : Nat) : text (inp.map g) p k = (text inp p k).map (sym g) := by
  unfold text
  rw [List.map_map, ← List.map_drop, ← List.map_take, List.map_map]
  rfl

theorem rmatches_map {g : Nat → Nat} {e : Option Re} (h : Indistinct g e) (inp : List Nat) (p k : Nat) :
    RMatches e (text (inp.map g) p k) ↔ RMatches e (text inp p k) := by
  rw [text_map]
  cases e with
  | none => exact List.map_eq_nil_iff
  | some e => exact matches_map e h _

end Classes

/-- C74: characters that no rule tells apart can be exchanged: lexing the text with each character `c` replaced by `g c` gives the same
tokens at the same places, if every character set of the rules contains `c` if and only if it contains `g c`. -/
theorem C74_classes {tr : Traits} (hnpos : 263 ≤ tr.npos) {R : Rules} {sm : Internals} {f : Flags} {r : Results} {xs : List SRule}
    (h : PlainLexer tr R sm f r xs) {g : Nat → Nat} (hg : ∀ x ∈ xs, Indistinct g x.2) {inp : List Nat} (hinp : ∀ c ∈ inp, c < charsOf tr) (hinp' : ∀ c ∈ inp, g c < charsOf tr)
    (hp : r.second < r.eoi) (he : r.eoi ≤ inp.length) :
    ∃ r1 r2, lookup f tr.npos (bytesOf tr) sm inp r = .ok r1 ∧ lookup f tr.npos (bytesOf tr) sm (inp.map g) r = .ok r2 ∧ sameToken r1 r2 := by
  obtain ⟨xss, a1, a2, a3⟩ := h.rules
  obtain ⟨addr, a4⟩ := h.built
  have hinp2 : ∀ c ∈ inp.map g, c < charsOf tr := by
    intro c hc
    obtain ⟨d, hd, rfl⟩ := List.mem_map.1 hc
    exact hinp' d hd
  obtain ⟨r1, h1, c1⟩ := C01_lookup_total hnpos a1 a2 a4 f hinp hp he a3 h.nonempty h.ids
  obtain ⟨r2, h2, c2⟩ := C01_lookup_total hnpos a1 a2 a4 f hinp2 hp (by rw [List.length_map]; exact he) a3 h.nonempty h.ids
  have hm : ∀ e ∈ xs.map (·.2), ∀ p k, RMatches e (text (inp.map g) p k) ↔ RMatches e (text inp p k) := by
    intro e he p k
    obtain ⟨x, hx, rfl⟩ := List.mem_map.1 he
    exact Classes.rmatches_map (hg x hx) inp p k
  have hb : ∀ k j, Best RMatches (xs.map (·.2)) inp r.second r.eoi k j → Best RMatches (xs.map (·.2)) (inp.map g) r.second r.eoi k j := by
    intro k j hb
    obtain ⟨e, g1, g2⟩ := hb.hit
    exact ⟨hb.nonempty, hb.inside, ⟨e, g1, (hm e (List.mem_of_getElem? g1) _ _).2 g2⟩,
      fun i e hi he hx => hb.earliest i e hi he ((hm e (List.mem_of_getElem? he) _ _).1 hx),
      fun k' i1 i2 e he hx => hb.longest k' i1 i2 e he ((hm e he _ _).1 hx)⟩
  refine ⟨r1, r2, h1, h2, ?_⟩
  rcases c1 with ⟨k, j, x, d1, d2, d3, d4, d5, d6⟩ | ⟨d1, d2, d3, d4, d5⟩
  · rcases c2 with ⟨k', j', y, e1, e2, e3, e4, e5, e6⟩ | ⟨e1, -⟩
    · obtain ⟨rfl, rfl⟩ := order_best_unique (hb k j d1) e1
      rw [d2] at e2
      cases e2
      exact ⟨d3.trans e3.symm, d4.trans e4.symm, d5.trans e5.symm, d6.trans e6.symm⟩
    · obtain ⟨e, g1, g2⟩ := (hb k j d1).hit
      exact absurd g2 (e1 k d1.nonempty d1.inside e (List.mem_of_getElem? g1))
  · rcases c2 with ⟨k', j', y, e1, e2, e3, e4, e5, e6⟩ | ⟨e1, e2, e3, e4, e5⟩
    · obtain ⟨e, g1, g2⟩ := e1.hit
      have he := List.mem_of_getElem? g1
      exact absurd ((hm e he _ _).1 g2) (d1 k' e1.nonempty e1.inside e he)
    · exact ⟨d2.trans e2.symm, d3.trans e3.symm, d4.trans e4.symm, d5.trans e5.symm⟩

/-- The hypotheses are met: `[a-b]+` does not tell `a` and `b` apart. -/
example : ∃ r1 r2, lookup ⟨false, false, false, false, true⟩ 65535 1 (Ex.machine (Ex.Order.one [Ex.Order.xAB])) [97, 98, 99] (.mk' 65535 0 3) = .ok r1 ∧
    lookup ⟨false, false, false, false, true⟩ 65535 1 (Ex.machine (Ex.Order.one [Ex.Order.xAB])) [98, 97, 99] (.mk' 65535 0 3) = .ok r2 ∧ sameToken r1 r2 := by
  have hABn : ¬ RMatches Ex.Order.xAB.2 [] := by
    rintro ⟨n, hn, hp⟩
    match n, hn, hp with
    | n + 1, _, ⟨u, v, h1, ⟨c, _, h2⟩, _⟩ =>
      rw [h2] at h1
      cases h1
  have hone : Ex.One Ex.tr Ex.Order.xAB := ⟨Ex.denAB, by simp only [CharSets, Ex.Order.xAB, Re.AllChars]; decide, rfl, rfl, rfl⟩
  refine C74_classes (tr := Ex.tr) (by decide) (f := ⟨false, false, false, false, true⟩) (g := fun c => if c = 97 then 98 else if c = 98 then 97 else c)
    (Ex.Order.plain (xs := [Ex.Order.xAB]) rfl ?_ ?_ ?_ (by decide) (by decide) (by decide +kernel) 3) ?_ (inp := [97, 98, 99]) (by decide) (by decide) (by decide) (by decide)
  all_goals simp only [NoEmpty, List.map_cons, List.map_nil, List.mem_cons, List.not_mem_nil, or_false, forall_eq]
  · exact hone
  · rfl
  · exact hABn
  · intro c
    simp only [Mem, List.mem_singleton, exists_eq_left]
    split
    · omega
    · split <;> omega

namespace Classes

theorem keeps_suffix {a w : List Nat} (h : KeepsCase (a ++ w)) : KeepsCase w := by
  intro a' v b f f' hw ho hf
  exact h (a ++ a') v b f f' (by rw [hw, List.append_assoc]) ho hf

theorem keeps_cons {c : Nat} {w : List Nat} (h : KeepsCase (c :: w)) : KeepsCase w := keeps_suffix (a := [c]) h

/-- The set does not tell the cases of ASCII letters apart. -/
def Inv (S : Nat → Prop) : Prop := ∀ c, S c ↔ S (asciiLower c)

theorem lower_lower (c : Nat) : asciiLower (asciiLower c) = asciiLower c := by
  unfold asciiLower
  grind

theorem inv_closed {E : TokEnv} (hA : AsciiCase E) (S : Nat → Prop) : Inv (Closed E true S) := by
  intro c
  rw [asciiClosed hA, asciiClosed hA, lower_lower]

theorem inv_compl {E : TokEnv} (hm : E.max = 255) {S : Nat → Prop} (h : Inv S) : Inv (Compl E S) := by
  intro c
  unfold Compl
  rw [← h c, hm]
  have : c ≤ 255 ↔ asciiLower c ≤ 255 := by unfold asciiLower; grind
  rw [this]

theorem inv_short {E : TokEnv} (hA : AsciiCase E) (hm : E.max = 255) {c : Nat} {S : Nat → Prop} (h : Shorthand E true c S) : Inv S := by
  cases h with
  | digit => exact inv_closed hA _
  | notDigit => exact inv_compl hm (inv_closed hA _)
  | space => exact inv_closed hA _
  | notSpace => exact inv_compl hm (inv_closed hA _)
  | word => exact inv_closed hA _
  | notWord => exact inv_compl hm (inv_closed hA _)

theorem inv_brackets {E : TokEnv} (hA : AsciiCase E) (hm : E.max = 255) {p : Part} {w : List Nat} {S : Nat → Prop} {rest : List Nat}
    (h : Brackets E true p w S rest) : Inv S := by
  induction h with
  | pos _ _ _ _ _ ih => exact ih
  | neg _ _ _ _ ih => exact inv_compl hm ih
  | last _ _ _ _ _ ih => exact ih
  | more _ _ _ _ _ _ _ _ ih1 ih2 => exact fun c => or_congr (ih1 c) (ih2 c)
  | char => exact inv_closed hA _
  | range => exact inv_closed hA _
  | short _ _ _ h => exact inv_short hA hm h
  | prop _ _ _ _ _ _ _ _ _ ih => exact ih
  | posix _ _ _ _ _ ih => exact ih
  | posixNeg _ _ _ _ _ ih => exact inv_compl hm ih
  | posixByte => exact inv_closed hA _
  | posixWide _ _ _ _ _ _ ih => exact ih

theorem inv_atom {E : TokEnv} (hA : AsciiCase E) (hm : E.max = 255) {f : ReFlags} (hf : f.icase = true) {b start : Bool} {v rest : List Nat} {S : Nat → Prop}
    (h : AtomText E f b start v S rest) : Inv S := by
  cases h with
  | quoted => rw [hf]; exact inv_closed hA _
  | plain => rw [hf]; exact inv_closed hA _
  | caret => intro c; unfold asciiLower; grind
  | dollar => intro c; unfold asciiLower; grind
  | dot => intro c; unfold Dot asciiLower; rw [hm]; grind
  | esc => rw [hf]; exact inv_closed hA _
  | short _ _ _ _ _ h => exact inv_short hA hm (hf ▸ h)
  | prop _ _ _ _ _ _ _ _ _ h => exact inv_brackets hA hm (hf ▸ h)
  | set _ _ _ _ h => exact inv_brackets hA hm (hf ▸ h)

/-- The same for a charset. -/
def InvSet (t : List (Nat × Nat)) : Prop := ∀ c, Mem c t ↔ Mem (asciiLower c) t

theorem inv_set {t : List (Nat × Nat)} {S : Nat → Prop} (h : IsSet t S) (hS : Inv S) : InvSet t := fun c => by
  rw [h.2, h.2]
  exact hS c

theorem inv_reads {E : TokEnv} (hA : AsciiCase E) (hm : E.max = 255) {start : Bool} {f : ReFlags} {fs : List ReFlags} {b : Bool} {w : List Nat} {ls : List Lx}
    (h : Spec.Reads E start f fs b w ls) : f.icase = true → (∀ g ∈ fs, g.icase = true) → KeepsCase w → ∀ t, .chars t ∈ ls → InvSet t := by
  induction h with
  | done => intro _ _ _ t ht; cases ht
  | quote _ _ _ _ _ _ _ ih => intro h1 h2 h3; exact ih h1 h2 (keeps_cons h3)
  | comment _ _ _ v w _ _ _ ih => intro h1 h2 h3; exact ih h1 h2 (keeps_suffix (a := 40 :: 63 :: 35 :: v) h3)
  | space _ _ _ _ _ _ _ _ _ ih => intro h1 h2 h3; exact ih h1 h2 (keeps_cons h3)
  | ccomment _ _ _ v w _ _ _ _ ih => intro h1 h2 h3; exact ih h1 h2 (keeps_suffix (a := 47 :: 42 :: v) h3)
  | atom _ _ _ _ _ _ _ _ _ h hs _ ih =>
    intro h1 h2 h3 t ht
    rcases List.mem_cons.1 ht with ht | ht
    · cases ht
      exact inv_set hs (inv_atom hA hm h1 h)
    · exact ih h1 h2 (keeps_suffix h3) t ht
  | bol _ _ _ _ _ ih => intro h1 h2 h3 t ht; exact ih h1 h2 (keeps_cons h3) t ((List.mem_cons.1 ht).resolve_left (by simp))
  | eol _ _ _ _ _ ih => intro h1 h2 h3 t ht; exact ih h1 h2 (keeps_cons h3) t ((List.mem_cons.1 ht).resolve_left (by simp))
  | bar _ _ _ _ _ _ ih => intro h1 h2 h3 t ht; exact ih h1 h2 (keeps_cons h3) t ((List.mem_cons.1 ht).resolve_left (by simp))
  | opn _ f fs _ _ _ _ ih =>
    intro h1 h2 h3 t ht
    exact ih h1 (fun g hg => (List.mem_cons.1 hg).elim (fun h => h ▸ h1) (h2 g)) (keeps_cons h3) t ((List.mem_cons.1 ht).resolve_left (by simp))
  | opts _ f fs v f' w _ ho _ ih =>
    intro h1 h2 h3 t ht
    exact ih (h3 [] v w f f' rfl ho h1) (fun g hg => (List.mem_cons.1 hg).elim (fun h => h ▸ h1) (h2 g)) (keeps_suffix (a := 40 :: 63 :: v) h3) t
      ((List.mem_cons.1 ht).resolve_left (by simp))
  | cls _ f g fs _ _ _ ih =>
    intro h1 h2 h3 t ht
    exact ih (h2 g (List.mem_cons_self ..)) (fun g' hg => h2 g' (List.mem_cons_of_mem _ hg)) (keeps_cons h3) t ((List.mem_cons.1 ht).resolve_left (by simp))
  | rep _ _ _ _ _ _ _ _ _ _ _ ih => intro h1 h2 h3 t ht; exact ih h1 h2 (keeps_suffix h3) t ((List.mem_cons.1 ht).resolve_left (by simp))
  | repLazy _ _ _ _ _ _ _ _ _ _ ih => intro h1 h2 h3 t ht; exact ih h1 h2 (keeps_cons (keeps_suffix h3)) t ((List.mem_cons.1 ht).resolve_left (by simp))
  | count _ _ _ v _ _ _ _ _ _ _ ih => intro h1 h2 h3 t ht; exact ih h1 h2 (keeps_cons (keeps_suffix (a := 123 :: v) h3)) t ((List.mem_cons.1 ht).resolve_left (by simp))
  | countLazy _ _ _ v _ _ _ _ _ _ ih => intro h1 h2 h3 t ht; exact ih h1 h2 (keeps_cons (keeps_cons (keeps_suffix (a := 123 :: v) h3))) t ((List.mem_cons.1 ht).resolve_left (by simp))
  | minus _ _ _ _ _ _ ih => intro h1 h2 h3 t ht; exact ih h1 h2 (keeps_suffix (a := [123, 45, 125]) h3) t ((List.mem_cons.1 ht).resolve_left (by simp))
  | union _ _ _ _ _ _ ih => intro h1 h2 h3 t ht; exact ih h1 h2 (keeps_suffix (a := [123, 43, 125]) h3) t ((List.mem_cons.1 ht).resolve_left (by simp))
  | mac _ _ _ name _ _ _ _ ih => intro h1 h2 h3 t ht; exact ih h1 h2 (keeps_cons (keeps_suffix (a := 123 :: name) h3)) t ((List.mem_cons.1 ht).resolve_left (by simp))

theorem inv_setOf {M : List (List Nat × Re)} (hM : ∀ name r, find name M = some r → r.AllChars InvSet) {ls : List Lx} {t : List (Nat × Nat)}
    (h : SetOf M ls t) : (∀ t, .chars t ∈ ls → InvSet t) → InvSet t := by
  induction h with
  | chars t => intro hl; exact hl t (List.mem_cons_self ..)
  | mac name t h => intro _; exact hM _ _ h
  | minus ls l t u v _ _ hv _ ih1 ih2 =>
    intro hl
    have i1 := ih1 fun t ht => hl t (List.mem_append_left _ ht)
    have i2 := ih2 fun t ht => hl t (List.mem_append_right _ (by simp at ht; simp [ht]))
    exact inv_set hv fun c => and_congr (i1 c) (not_congr (i2 c))
  | union ls l t u v _ _ hv ih1 ih2 =>
    intro hl
    have i1 := ih1 fun t ht => hl t (List.mem_append_left _ ht)
    have i2 := ih2 fun t ht => hl t (List.mem_append_right _ (by simp at ht; simp [ht]))
    exact inv_set hv fun c => or_congr (i1 c) (i2 c)

theorem inv_repeated {P : List (Nat × Nat) → Prop} {r : Re} (h : r.AllChars P) (lo : Nat) (hi : Option Nat) (lz : Bool) : (repeated r lo hi lz).AllChars P := by
  unfold repeated
  split
  · exact h
  · split
    · exact h
    · split <;> exact h

theorem inv_parses {M : List (List Nat × Re)} (hM : ∀ name r, find name M = some r → r.AllChars InvSet) {l : Level} {ls : List Lx} {r : Re}
    (h : Parses M l ls r) : (∀ t, .chars t ∈ ls → InvSet t) → r.AllChars InvSet := by
  induction h with
  | set ls t h => intro hl; exact inv_setOf hM h hl
  | bol => intro _; trivial
  | eol => intro _; trivial
  | paren ls r _ ih => intro hl; exact ih fun t ht => hl t (by simp [ht])
  | mac name r h => intro _; exact hM _ _ h
  | item _ _ _ ih => exact ih
  | rep ls r lo hi lz _ ih => intro hl; exact inv_repeated (ih fun t ht => hl t (List.mem_append_left _ ht)) _ _ _
  | seq1 _ _ _ ih => exact ih
  | seq ls ms l r _ _ ih1 ih2 => intro hl; exact ⟨ih1 fun t ht => hl t (List.mem_append_left _ ht), ih2 fun t ht => hl t (List.mem_append_right _ ht)⟩
  | alt1 _ _ _ ih => exact ih
  | alt ls ms l r _ _ ih1 ih2 =>
    intro hl
    exact ⟨ih1 fun t ht => hl t (List.mem_append_left _ ht), ih2 fun t ht => hl t (List.mem_append_right _ (List.mem_cons_of_mem _ ht))⟩

theorem inv_means {E : TokEnv} (hA : AsciiCase E) (hm : E.max = 255) {M : List (List Nat × Re)} (hM : ∀ name r, find name M = some r → r.AllChars InvSet)
    {f : ReFlags} (hf : f.icase = true) {w : List Nat} (hw : KeepsCase w) {r : Re} (h : Means E M f w r) : r.AllChars InvSet := by
  obtain ⟨ls, h1, h2⟩ := h
  exact inv_parses hM h2 (inv_reads hA hm h1 hf (by simp) hw)

theorem inv_program {E : TokEnv} (hA : AsciiCase E) (hm : E.max = 255) {npos : Nat} {f : ReFlags} (hf : f.icase = true) {cs : List Call}
    {M : List (List Nat × Re)} {es : List (Re × Nat × Nat)} (h : Program E npos f cs M es) :
    (∀ name w, .insertMacro name w ∈ cs → KeepsCase w) → (∀ w id uid, .push w id uid ∈ cs → KeepsCase w) →
    (∀ name r, find name M = some r → r.AllChars InvSet) ∧ ∀ e ∈ es, e.1.AllChars InvSet := by
  induction h with
  | nil => intro _ _; exact ⟨fun name r h => (by cases h), fun e he => (by cases he)⟩
  | mac cs M es name w r _ _ _ _ h _ _ ih =>
    intro h1 h2
    obtain ⟨i1, i2⟩ := ih (fun n w hw => h1 n w (List.mem_append_left _ hw)) (fun w i u hw => h2 w i u (List.mem_append_left _ hw))
    refine ⟨fun n r' hr => ?_, i2⟩
    simp only [find] at hr
    split at hr
    · cases hr
      exact inv_means hA hm i1 hf (h1 name w (by simp)) h
    · exact i1 _ _ hr
  | rule cs M es w r id uid _ _ h _ _ _ ih =>
    intro h1 h2
    obtain ⟨i1, i2⟩ := ih (fun n w hw => h1 n w (List.mem_append_left _ hw)) (fun w i u hw => h2 w i u (List.mem_append_left _ hw))
    refine ⟨i1, fun e he => ?_⟩
    rcases List.mem_append.1 he with he | he
    · exact i2 e he
    · cases List.mem_singleton.1 he
      exact inv_means hA hm i1 hf (h2 w id uid (by simp)) h

end Classes

/-- The rules of such a program, and that they do not tell cases apart. -/
theorem icase_plain {E : TokEnv} (hE : TokEnvOk E) (hC : CharsOk E) (hA : AsciiCase E) {tr : Traits} (hmax : E.max + 1 = charsOf tr)
    (hcomp : tr.compressed = false) {f : ReFlags} (hf : f.icase = true) {cs : List Call} {M : List (List Nat × Re)} {es : List (Re × Nat × Nat)}
    (h : Program E tr.npos f cs M es) (hmac : ∀ name w, .insertMacro name w ∈ cs → KeepsCase w) (hrule : ∀ w id uid, .push w id uid ∈ cs → KeepsCase w)
    (hbol : ∀ e ∈ es, e.1.noBol = true) (heol : ∀ e ∈ es, e.1.noEol = true) (hcount : (es.map fun e => e.1.slots tr).sum + 2 ≤ tr.npos)
    (hempty : ∀ e ∈ es, ¬ e.1.Matches []) (hskip : ∀ e ∈ es, e.2.1 ≠ tr.npos - 1)
    {o : RulesObj} (ho : AllOk E tr (RulesObj.new tr f) cs o) {addr : Nat → Nat} {sm : Internals} (hsm : buildTemp tr addr o.rules = .ok sm)
    (fl : Flags) {r : Results} (hr : r.state = 0) : ∃ xs, PlainLexer tr o.rules sm fl r xs ∧ ∀ x ∈ xs, Indistinct asciiLower x.2 := by
  have hm := hE.byte hA.size
  obtain ⟨o', xs, h1, h2⟩ := program_run hE hC h
  obtain rfl := allOk_unique ho h1
  have hR := program_ruleSet hmax h2 (fun e he => noBol_head (hbol e he)) heol (fun h => (by rw [hcomp] at h; cases h)) hcount
  have hx : ∀ x ∈ xs, ∃ e ∈ es, (some e.1, e.2.1, e.2.2) = (x.2, x.1.id, x.1.userId) := fun x hx => by
    have : (x.2, x.1.id, x.1.userId) ∈ es.map (fun e => (some e.1, e.2.1, e.2.2)) := h2.rules ▸ List.mem_map_of_mem hx
    exact List.mem_map.1 this
  have hP : PlainLexer tr o.rules sm fl r xs := by
    refine ⟨⟨[xs], hR, ?_, by rw [hr]; rfl⟩, ⟨addr, hsm⟩, ?_, ?_⟩
    · intro ys hys x hxx
      cases List.mem_singleton.1 hys
      obtain ⟨e, he, hq⟩ := hx x hxx
      injection hq with q1 q2
      rw [← q1]
      exact hbol e he
    · intro d hd
      obtain ⟨x, hxx, rfl⟩ := List.mem_map.1 hd
      obtain ⟨e, he, hq⟩ := hx x hxx
      injection hq with q1 q2
      rw [← q1]
      exact hempty e he
    · intro x hxx
      obtain ⟨e, he, hq⟩ := hx x hxx
      injection hq with q1 q2
      injection q2 with q2 q3
      rw [← q2]
      exact ⟨hskip e he, program_ids h e he, .inr (h2.each x hxx).2.2.2.1⟩
  refine ⟨xs, hP, fun x hxx => ?_⟩
  obtain ⟨e, he, hq⟩ := hx x hxx
  injection hq with q1 q2
  rw [← q1]
  exact (Classes.inv_program hA hm hf h hmac hrule).2 e he

theorem icase_lower {E : TokEnv} (hE : TokEnvOk E) (hA : AsciiCase E) {tr : Traits} (hmax : E.max + 1 = charsOf tr) {inp : List Nat} (hinp : ∀ c ∈ inp, c < charsOf tr) :
    ∀ c ∈ inp, asciiLower c < charsOf tr := by
  intro c hc
  have := hinp c hc
  rw [← hmax, hE.byte hA.size] at this ⊢
  unfold asciiLower
  grind

/-- C74: with case ignored, the case of ASCII letters in the input does not matter: for every program of macros and rules none of whose
texts switches this off, lexing a text and lexing it in lower case give the same tokens at the same places. -/
theorem C74_icase {E : TokEnv} (hE : TokEnvOk E) (hC : CharsOk E) (hA : AsciiCase E) {tr : Traits} (hmax : E.max + 1 = charsOf tr) (hnpos : 263 ≤ tr.npos)
    (hcomp : tr.compressed = false) {f : ReFlags} (hf : f.icase = true) {cs : List Call} {M : List (List Nat × Re)} {es : List (Re × Nat × Nat)}
    (h : Program E tr.npos f cs M es) (hmac : ∀ name w, .insertMacro name w ∈ cs → KeepsCase w) (hrule : ∀ w id uid, .push w id uid ∈ cs → KeepsCase w)
    (hbol : ∀ e ∈ es, e.1.noBol = true) (heol : ∀ e ∈ es, e.1.noEol = true) (hcount : (es.map fun e => e.1.slots tr).sum + 2 ≤ tr.npos)
    (hempty : ∀ e ∈ es, ¬ e.1.Matches []) (hskip : ∀ e ∈ es, e.2.1 ≠ tr.npos - 1)
    {o : RulesObj} (ho : AllOk E tr (RulesObj.new tr f) cs o) {addr : Nat → Nat} {sm : Internals} (hsm : buildTemp tr addr o.rules = .ok sm)
    (fl : Flags) {inp : List Nat} (hinp : ∀ c ∈ inp, c < charsOf tr) {r : Results} (hr : r.state = 0) (hp : r.second < r.eoi) (he : r.eoi ≤ inp.length) :
    ∃ r1 r2, lookup fl tr.npos (bytesOf tr) sm inp r = .ok r1 ∧ lookup fl tr.npos (bytesOf tr) sm (inp.map asciiLower) r = .ok r2 ∧ sameToken r1 r2 := by
  obtain ⟨xs, hP, hI⟩ := icase_plain hE hC hA hmax hcomp hf h hmac hrule hbol heol hcount hempty hskip ho hsm fl hr
  exact C74_classes hnpos hP hI hinp (icase_lower hE hA hmax hinp) hp he

theorem keepsCase_of {w : List Nat} (h : 40 ∉ w) : KeepsCase w := by
  rintro a v b f f' rfl
  exact absurd (List.mem_append_right a (List.mem_cons_self ..)) h

/-- The hypotheses of `C74_icase` are met by the rules `k` and `[W-c]`, ignoring case, and a machine is built from them. -/
example : Program Ex.env Ex.tr.npos { icase := true } [.push [107] 1 5, .push [91, 87, 45, 99, 93] 2 6] []
      [(.chars [(75, 75), (107, 107)], 1, 5), (.chars [(65, 67), (87, 99), (119, 122)], 2, 6)] ∧
    KeepsCase [107] ∧ KeepsCase [91, 87, 45, 99, 93] ∧
    (buildTemp Ex.tr (fun i => i) (Ex.runs [.push [107] 1 5, .push [91, 87, 45, 99, 93] 2 6] (RulesObj.new Ex.tr { icase := true })).rules).isOk = true := by
  have hA : AsciiCase Ex.env := ⟨rfl, fun c => rfl, fun c => rfl⟩
  refine ⟨.rule [.push [107] 1 5] [] [(.chars [(75, 75), (107, 107)], 1, 5)] _ _ _ _ (.rule [] [] [] _ _ _ _ .nil (by unfold TextOk; decide) ?_ rfl (by decide) (by decide))
    (by unfold TextOk; decide) ?_ rfl (by decide) (by decide), keepsCase_of (by decide), keepsCase_of (by decide), by decide +kernel⟩
  · refine atom_means (.plain _ _ _ (by decide) (by decide)) ⟨⟨by decide, by decide⟩, fun c => ?_⟩
    rw [asciiClosed hA]
    simp only [Mem, List.mem_cons, List.not_mem_nil, or_false, exists_eq_or_imp, exists_eq_left, asciiLower]
    grind
  · refine atom_means (.set true [87, 45, 99, 93] _ [] (.pos _ _ (by decide) (.last true [87, 45, 99] _ (.inl rfl)
      (.range [87] 87 [99] 99 [93] (.self 87 _ (by decide) (by decide)) (.self 99 _ (by decide) (by decide)) (by decide) (by decide)))
      ⟨87, .inl (by decide)⟩)) ⟨⟨by decide, by decide⟩, fun c => ?_⟩
    rw [asciiClosed hA]
    simp only [Mem, List.mem_cons, List.not_mem_nil, or_false, exists_eq_or_imp, exists_eq_left, asciiLower]
    constructor
    · rintro (h | h | h)
      · exact ⟨c + 32, by omega, by grind⟩
      · exact ⟨c, by omega, rfl⟩
      · exact ⟨c - 32, by omega, by grind⟩
    · rintro ⟨d, h1, h2⟩
      grind

end Lexertl.Props
