import Verif.Spec.Text
import Verif.Proofs.StringToken

/-
The tokeniser on any text: no undefined behaviour, termination, and what its tokens look
like.
-/
namespace Lexertl
open Spec

namespace Spec.Total
variable {α β : Type} {Q : α → Prop} {S : β → Prop}

theorem bind {x : M α} {g : α → M β} (h : Total Q x) (hg : ∀ a, Q a → Total S (g a)) : Total S (x >>= g) := by
  cases x with
  | ok a => exact hg a h
  | error e => cases e <;> first | exact h | trivial

theorem mono {Q' : α → Prop} {x : M α} (h : Total Q x) (hq : ∀ a, Q a → Q' a) : Total Q' x := by
  cases x with
  | ok a => exact hq a h
  | error e => cases e <;> first | exact h | trivial

theorem of_throw {s : String} : Total Q (throw_ s) := trivial

end Spec.Total

/-! ### Charsets -/

/-- Characters at most `max`, in normal form. -/
structure Cs (max : Nat) (t : Token) : Prop where
  normal : Normal t
  within : Within max t

namespace Cs
variable {max : Nat} {t s : Token}

theorem nil : Cs max [] := ⟨Token.normal_nil, by simp [Within]⟩

theorem insert (h : Cs max t) {r : Range} (hr : r.1 ≤ r.2) (hm : r.2 ≤ max) : Cs max (t.insert r) := by
  have hn := Token.insert_normal t r h.normal hr
  refine ⟨hn, (Token.within_iff max _ hn.1).2 fun c hc => ?_⟩
  rcases (Token.mem_insert t r h.normal hr c).1 hc with hc | hc
  · exact (Token.within_iff max _ h.normal.1).1 h.within c hc
  · omega

theorem insertToken (h : Cs max t) (hs : Cs max s) : Cs max (t.insertToken s) := by
  obtain ⟨hn, hc⟩ := Token.insertToken_spec t s h.normal hs.normal.1
  refine ⟨hn, (Token.within_iff max _ hn.1).2 fun c h1 => ?_⟩
  rcases (hc c).1 h1 with h1 | h1
  · exact (Token.within_iff max _ h.normal.1).1 h.within c h1
  · exact (Token.within_iff max _ hs.normal.1).1 hs.within c h1

theorem negate (h : Cs max t) : Cs max (t.negate max) := by
  obtain ⟨hn, hc⟩ := Token.negate_spec max t h.normal h.within
  exact ⟨hn, (Token.within_iff max _ hn.1).2 fun c h1 => ((hc c).1 h1).1⟩

theorem ne_of_mem {c : Nat} (h : Mem c t) : t ≠ [] := by
  rintro rfl
  exact Token.mem_nil c h

theorem remove (h : Cs max t) (hs : Cs max s) : ∃ t', t.remove s = some t' ∧ Cs max t' := by
  obtain ⟨t', h1, h2, h3⟩ := Token.remove_spec t s h.normal hs.normal
  exact ⟨t', h1, h2, (Token.within_iff max _ h2.1).2 fun c hc =>
    (Token.within_iff max _ h.normal.1).1 h.within c ((h3 c).1 hc).1⟩

end Cs

theorem foldOne_cs {E : TokEnv} (hE : TokEnvOk E) {r : Range} (hr : r.2 ≤ E.max) : Cs E.max (foldOne E r) := by
  unfold foldOne
  suffices ∀ (l : List Nat) (out : Token), (∀ c ∈ l, c ≤ E.max) → Cs E.max out → Cs E.max (l.foldl (fun out c =>
      let out := if E.upper c ≠ c then out.insert (E.upper c, E.upper c) else out
      if E.lower c ≠ c then out.insert (E.lower c, E.lower c) else out) out) by
    refine this _ _ (fun c hc => ?_) Cs.nil
    rw [List.mem_range'_1] at hc
    omega
  intro l
  induction l with
  | nil => intro out _ h; exact h
  | cons c l ih =>
    intro out hl h
    have hc := hl c (by simp)
    refine ih _ (fun d hd => hl d (by simp [hd])) ?_
    have h1 : Cs E.max (if E.upper c ≠ c then out.insert (E.upper c, E.upper c) else out) := by
      split
      · exact h.insert (Nat.le_refl _) (hE.upper c hc)
      · exact h
    dsimp only
    split
    · exact h1.insert (Nat.le_refl _) (hE.lower c hc)
    · exact h1

theorem foldTwo_cs {max : Nat} {r : Range} (hr : r.1 ≤ r.2) : ∀ (ps : List FoldPair) (out : Token),
    (∀ p ∈ ps, FoldOk max p) → Cs max out → Cs max (foldTwo r ps out)
  | [], out, _, h => h
  | ((f1, f2), (t1, t2)) :: ps, out, hp, h => by
    have hq := hp _ (List.mem_cons_self ..)
    have ih := fun o => foldTwo_cs hr ps o (fun p hm => hp p (by simp [hm]))
    unfold FoldOk at hq
    dsimp only at hq
    unfold foldTwo
    split
    · exact h
    · split <;> rename_i hlt heq <;> split at heq <;> rename_i ht <;>
        simp only [ht, if_true, if_false] at hq <;> obtain ⟨rfl, rfl⟩ := Prod.mk.inj heq
      all_goals
        split
        · refine ih _ (h.insert ?_ ?_) <;> dsimp only <;> split <;> omega
        split
        · refine ih _ (h.insert ?_ ?_) <;> dsimp only <;> omega
        split
        · refine ih _ (h.insert ?_ ?_) <;> dsimp only <;> omega
        exact ih _ h

theorem foldFour_cs {max : Nat} {r : Range} (hr : r.1 ≤ r.2) : ∀ (ps : List FoldPair) (out : Token),
    (∀ p ∈ ps, FoldOk max p ∧ p.2.1 ≤ p.2.2) → Cs max out → Cs max (foldFour r ps out)
  | [], out, _, h => h
  | ((f1, f2), (t1, t2)) :: ps, out, hp, h => by
    obtain ⟨hq, ht⟩ := hp _ (List.mem_cons_self ..)
    have ih := fun o => foldFour_cs hr ps o (fun p hm => hp p (by simp [hm]))
    unfold FoldOk at hq
    dsimp only at hq ht
    simp only [ht, if_true] at hq
    unfold foldFour
    split
    · exact h
    split
    · refine ih _ (h.insert ?_ ?_) <;> dsimp only <;> split <;> omega
    split
    · refine ih _ (h.insert ?_ ?_) <;> dsimp only <;> omega
    split
    · refine ih _ (h.insert ?_ ?_) <;> dsimp only <;> omega
    exact ih _ h

theorem foldRange_cs {E : TokEnv} (hE : TokEnvOk E) {r : Range} (hr : r.1 ≤ r.2) (hm : r.2 ≤ E.max) :
    Cs E.max (foldRange E r) := by
  unfold foldRange
  split
  · exact foldOne_cs hE hm
  split
  · exact foldTwo_cs hr _ _ hE.fold2 Cs.nil
  refine foldFour_cs hr _ _ hE.fold4 ?_
  split
  · exact foldTwo_cs hr _ _ hE.fold2 Cs.nil
  · exact Cs.nil

theorem addRange_cs {E : TokEnv} (hE : TokEnvOk E) (ic : Bool) {r : Range} (hr : r.1 ≤ r.2) (hm : r.2 ≤ E.max)
    {t : Token} (h : Cs E.max t) : Cs E.max (addRange E ic r t) := by
  unfold addRange
  dsimp only
  split
  · exact (h.insert hr hm).insertToken (foldRange_cs hE hr hm)
  · exact h.insert hr hm

theorem addRange_mem {E : TokEnv} (hE : TokEnvOk E) (ic : Bool) {r : Range} (hr : r.1 ≤ r.2) (hm : r.2 ≤ E.max)
    {t : Token} (h : Cs E.max t) {c : Nat} (hc : r.1 ≤ c ∧ c ≤ r.2) : Mem c (addRange E ic r t) := by
  have h1 : Mem c (t.insert r) := (Token.mem_insert t r h.normal hr c).2 (.inr hc)
  unfold addRange
  dsimp only
  split
  · exact ((Token.insertToken_spec _ _ (h.insert hr hm).normal (foldRange_cs hE hr hm).normal.1).2 c).2 (.inl h1)
  · exact h1

/-! ### Texts: `r` is what is left of `cs` after at least one character -/

/-- A proper suffix. -/
def Adv (r cs : List Nat) : Prop := ∃ c cs', cs = c :: cs' ∧ r <:+ cs'

namespace Adv
variable {r s cs : List Nat} {c : Nat}

theorem suffix (h : Adv r cs) : r <:+ cs := by
  obtain ⟨c, cs', rfl, h⟩ := h
  exact h.trans (List.suffix_cons ..)

theorem length (h : Adv r cs) : r.length < cs.length := by
  obtain ⟨c, cs', rfl, h⟩ := h
  have := h.length_le
  simp only [List.length_cons]
  omega

theorem cons (h : r <:+ cs) : Adv r (c :: cs) := ⟨c, cs, rfl, h⟩

theorem trans_left (h : r <:+ s) (h' : Adv s cs) : Adv r cs := by
  obtain ⟨c, cs', rfl, h'⟩ := h'
  exact ⟨c, cs', rfl, h.trans h'⟩

theorem trans_right (h : Adv r s) (h' : s <:+ cs) : Adv r cs := by
  obtain ⟨c, s', rfl, h⟩ := h
  obtain ⟨p, rfl⟩ := h'
  cases p with
  | nil => exact ⟨c, s', rfl, h⟩
  | cons d p => exact ⟨d, p ++ c :: s', rfl, h.trans ((List.suffix_cons ..).trans (List.suffix_append ..))⟩

theorem trans (h : Adv r s) (h' : Adv s cs) : Adv r cs := trans_right h h'.suffix

end Adv

theorem textOk_suffix {E : TokEnv} {r cs : List Nat} (h : TextOk E cs) (hs : r <:+ cs) : TextOk E r :=
  fun c hc => h c (hs.subset hc)

/-! ### Escape sequences -/

theorem octalLoop_suffix : ∀ (n o : Nat) (cs : List Nat), (octalLoop n o cs).2 <:+ cs
  | 0, _, cs => List.suffix_refl _
  | _ + 1, _, [] => List.suffix_refl _
  | n + 1, o, c :: cs => by
    unfold octalLoop
    split
    · exact (octalLoop_suffix n _ cs).trans (List.suffix_cons ..)
    · exact List.suffix_refl _

theorem hexLoop_suffix : ∀ (h : Nat) (cs : List Nat), (hexLoop h cs).2 <:+ cs
  | _, [] => List.suffix_refl _
  | h, c :: cs => by
    unfold hexLoop
    split
    · exact (hexLoop_suffix _ cs).trans (List.suffix_cons ..)
    · exact List.suffix_refl _

theorem toBrace_suffix : ∀ (cs : List Nat), (toBrace cs).2 <:+ cs
  | [] => List.suffix_refl _
  | c :: cs => by
    unfold toBrace
    split
    · exact List.suffix_refl _
    · exact (toBrace_suffix cs).trans (List.suffix_cons ..)

theorem decodeOctal_total (E : TokEnv) (c : Nat) (cs : List Nat) :
    Total (fun x => x.1 ≤ E.max ∧ Adv x.2 (c :: cs)) (decodeOctal E (c :: cs)) := by
  unfold decodeOctal
  dsimp only
  split
  · trivial
  · exact ⟨by dsimp only; omega, Adv.cons (octalLoop_suffix ..)⟩

theorem decodeControl_total {E : TokEnv} (hE : TokEnvOk E) (cs : List Nat) :
    Total (fun x => x.1 ≤ E.max ∧ Adv x.2 cs) (decodeControl cs) := by
  have := hE.big
  unfold decodeControl
  split
  · trivial
  · repeat' split
    all_goals first | trivial | exact ⟨by dsimp only; omega, Adv.cons (List.suffix_refl _)⟩

theorem decodeHex_total (E : TokEnv) (cs : List Nat) :
    Total (fun x => x.1 ≤ E.max ∧ Adv x.2 cs) (decodeHex E cs) := by
  unfold decodeHex
  split
  · trivial
  · split
    · dsimp only
      split
      · trivial
      · exact ⟨by dsimp only; omega, Adv.cons (hexLoop_suffix ..)⟩
    · trivial

theorem escChar_total {E : TokEnv} (hE : TokEnvOk E) (c : Nat) (cs : List Nat) (ht : TextOk E (c :: cs)) :
    Total (fun x => x.1 ≤ E.max ∧ Adv x.2 (c :: cs)) (escChar E (c :: cs)) := by
  have hb := hE.big
  have hc := ht c (by simp)
  have hs : Adv cs (c :: cs) := Adv.cons (List.suffix_refl _)
  unfold escChar
  dsimp only
  split
  · exact decodeOctal_total E c cs
  repeat' split
  all_goals
    first
    | exact (decodeControl_total hE cs).mono fun a h => ⟨h.1, h.2.trans hs⟩
    | exact (decodeHex_total E cs).mono fun a h => ⟨h.1, h.2.trans hs⟩
    | exact ⟨by dsimp only; omega, hs⟩

/-- The texts an escape sequence can stand for. -/
def EscText (E : TokEnv) (str : List Nat) : Prop :=
  str ∈ [chars "[0-9]", chars "[^0-9]", [91, 32, 9, 10, 13, 12, 11, 93], [91, 94, 32, 9, 10, 13, 12, 11, 93],
    chars "[_0-9A-Za-z]", chars "[^_0-9A-Za-z]"] ∨ ∃ name, E.unicode name = some str

theorem unicodeEscape_total (E : TokEnv) (cs : List Nat) :
    Total (fun x => (∃ name, E.unicode name = some x.1) ∧ Adv x.2 cs ∧ x.2 ≠ []) (unicodeEscape E cs) := by
  unfold unicodeEscape
  split
  · trivial
  · split
    · trivial
    · split
      · trivial
      · dsimp only
        have hs := toBrace_suffix
        split
        · trivial
        · rename_i b bs heq
          split
          · rename_i str hu
            refine ⟨⟨_, hu⟩, ?_, by rw [heq]; simp⟩
            rw [heq]
            exact (Adv.cons (heq ▸ hs _)).trans (Adv.cons (List.suffix_refl _))
          · trivial

theorem escapeSeq_total {E : TokEnv} (hE : TokEnvOk E) {cs : List Nat} (ht : TextOk E cs) :
    Total (fun x => (match x.1 with | .text str => EscText E str | .char c => c ≤ E.max) ∧ Adv x.2 cs)
      (escapeSeq E cs) := by
  unfold escapeSeq
  split
  · trivial
  cases cs with
  | nil => contradiction
  | cons c cs =>
    have hs : Adv cs (c :: cs) := Adv.cons (List.suffix_refl _)
    unfold shortcut
    dsimp only
    repeat' split
    all_goals
      first
      | (refine ⟨?_, hs⟩
         left
         simp only [List.mem_cons, true_or, or_true])
      | skip
    · have := unicodeEscape_total E cs
      cases hu : unicodeEscape E cs with
      | error e =>
        rw [hu] at this
        cases e <;> first | exact this | trivial
      | ok x =>
        rw [hu] at this
        obtain ⟨str, r⟩ := x
        obtain ⟨h1, h2, h3⟩ := this
        cases r with
        | nil => contradiction
        | cons b bs => exact ⟨.inr h1, ((Adv.cons (List.suffix_refl _)).trans h2).trans hs⟩
    · exact (escChar_total hE c cs ht).bind fun a h => h

theorem escText_ok {E : TokEnv} (hE : TokEnvOk E) {str : List Nat} (h : EscText E str) : TextOk E str.tail := by
  have hb := hE.big
  intro c hc
  have hc := List.mem_of_mem_tail hc
  rcases h with h | ⟨name, h⟩
  · have : ∀ s ∈ [chars "[0-9]", chars "[^0-9]", [91, 32, 9, 10, 13, 12, 11, 93],
        [91, 94, 32, 9, 10, 13, 12, 11, 93], chars "[_0-9A-Za-z]", chars "[^_0-9A-Za-z]"], ∀ c ∈ s, c ≤ 127 := by
      decide
    have := this str h c hc
    omega
  · exact hE.unicode name str h c hc


/-! ### Charsets of the text -/

/-- `Total`, where the bound on the number of rounds may be too small if `F`. -/
def Tot (F : Prop) {α : Type} (Q : α → Prop) : M α → Prop
  | .ok a => Q a
  | .error (.throw _) => True
  | .error .fuel => F
  | .error (.ub _) => False

namespace Tot
variable {α β : Type} {F : Prop} {Q : α → Prop} {S : β → Prop}

theorem bind {x : M α} {g : α → M β} (h : Tot F Q x) (hg : ∀ a, Q a → Tot F S (g a)) : Tot F S (x >>= g) := by
  cases x with
  | ok a => exact hg a h
  | error e => cases e <;> first | exact h | trivial

theorem mono {Q' : α → Prop} {x : M α} (h : Tot F Q x) (hq : ∀ a, Q a → Q' a) : Tot F Q' x := by
  cases x with
  | ok a => exact hq a h
  | error e => cases e <;> first | exact h | trivial

theorem of_total {x : M α} (h : Total Q x) : Tot F Q x := by
  cases x with
  | ok a => exact h
  | error e => cases e <;> first | exact h | exact h.elim | trivial

theorem total {x : M α} (h : Tot F Q x) (hx : x ≠ .error .fuel) : Total Q x := by
  cases x with
  | ok a => exact h
  | error e => cases e <;> first | exact h | exact (hx rfl).elim | trivial

end Tot

/-- The texts POSIX names stand for. -/
def PosixText (E : TokEnv) (str : List Nat) : Prop := ∃ name, (name, str) ∈ posixTexts E

theorem stripPrefix_suffix : ∀ (p cs r : List Nat), stripPrefix p cs = some r → r <:+ cs
  | [], cs, r, h => by simp only [stripPrefix, Option.some.injEq] at h; exact h ▸ List.suffix_refl _
  | _ :: _, [], r, h => by simp [stripPrefix] at h
  | p :: ps, c :: cs, r, h => by
    unfold stripPrefix at h
    split at h
    · exact (stripPrefix_suffix ps cs r h).trans (List.suffix_cons ..)
    · contradiction

theorem posixName_spec : ∀ (ps : List (List Nat × List Nat)) (cs str r : List Nat),
    posixName ps cs = some (str, r) → (∃ name, (name, str) ∈ ps) ∧ r <:+ cs
  | [], cs, str, r, h => by simp [posixName] at h
  | (name, s) :: ps, cs, str, r, h => by
    unfold posixName at h
    split at h
    · rename_i r' hs
      simp only [Option.some.injEq, Prod.mk.injEq] at h
      obtain ⟨rfl, rfl⟩ := h
      exact ⟨⟨name, by simp⟩, stripPrefix_suffix _ _ _ hs⟩
    · obtain ⟨⟨n, hn⟩, h2⟩ := posixName_spec ps cs str r h
      exact ⟨⟨n, by simp [hn]⟩, h2⟩

theorem posixClass_total (E : TokEnv) (cs : List Nat) :
    Total (fun x => PosixText E x.1 ∧ Adv x.2.2 cs) (posixClass E cs) := by
  suffices ∀ (neg : Bool) (cs' : List Nat), cs' <:+ cs → Total (fun x => PosixText E x.1 ∧ Adv x.2.2 cs)
      (if cs' = [] then throw_ "Unexpected end of regex (unterminated POSIX charset)"
      else
        match posixName (posixTexts E) cs' with
        | none => throw_ "Unknown POSIX charset"
        | some (str, cs) =>
          match cs with
          | [] => throw_ "Unexpected end of regex (unterminated POSIX charset)"
          | c :: cs =>
            if c ≠ 58 then throw_ "Missing ':'"
            else
              match cs with
              | [] => throw_ "Unexpected end of regex (unterminated POSIX charset)"
              | c :: cs => if c ≠ 93 then throw_ "Missing ']'" else .ok (str, neg, cs)) by
    unfold posixClass
    split
    · rename_i h
      split at h <;> simp only [Prod.mk.injEq] at h <;> obtain ⟨rfl, rfl⟩ := h
      · exact this true _ (List.suffix_cons ..)
      · exact this false _ (List.suffix_refl _)
  intro neg cs' hs
  split
  · trivial
  split
  · trivial
  · rename_i str r hn
    obtain ⟨h1, h2⟩ := posixName_spec _ _ _ _ hn
    split
    · trivial
    split
    · trivial
    split
    · trivial
    split
    · trivial
    rename_i c1 _ _ c2 r'
    exact ⟨h1, Adv.trans_right (Adv.cons (List.suffix_cons ..)) (h2.trans hs)⟩

theorem charsetRange_total {E : TokEnv} (hE : TokEnvOk E) (ic chset : Bool) {prev : Nat} {t : Token} {cs : List Nat}
    (ht : TextOk E cs) (h : Cs E.max t) :
    Total (fun x => Cs E.max x.1 ∧ Adv x.2 cs ∧ x.2 ≠ []) (charsetRange E ic chset prev t cs) := by
  unfold charsetRange
  split
  · trivial
  split
  · trivial
  rename_i c cs
  have hs : Adv cs (c :: cs) := Adv.cons (List.suffix_refl _)
  have fin : ∀ x : Nat × List Nat, x.1 ≤ E.max ∧ Adv x.2 (c :: cs) →
      Total (fun x => Cs E.max x.1 ∧ Adv x.2 (c :: cs) ∧ x.2 ≠ [])
        (if x.2 = [] then throw_ "Unexpected end of regex (missing ']')"
          else if x.1 < prev then throw_ "Max less than Min in charset range"
          else .ok (addRange E ic (prev, x.1) t, x.2)) := by
    intro x hx
    split
    · trivial
    split
    · trivial
    · rename_i h1 h2
      exact ⟨addRange_cs hE ic (by dsimp only; omega) hx.1 h, hx.2, h1⟩
  split
  · refine (escapeSeq_total hE (textOk_suffix ht (List.suffix_cons ..))).bind fun a ha => ?_
    obtain ⟨e, r⟩ := a
    cases e with
    | text s => trivial
    | char d => exact fin (d, r) ⟨ha.1, ha.2.trans hs⟩
  split
  · trivial
  · exact fin (c, cs) ⟨ht c (by simp), hs⟩

theorem charsetLoop_tot {F : Prop} {E : TokEnv} (hE : TokEnvOk E) (ic : Bool) {sub : List Nat → M Token} :
    ∀ (n : Nat) (t : Token) (cs : List Nat),
    (92 ∈ cs → ∀ str, EscText E str → Tot F (Cs E.max) (sub str.tail)) →
    ([91, 58] <:+: cs → ∀ str, PosixText E str → Tot F (Cs E.max) (sub str.tail)) →
    TextOk E cs → Cs E.max t → cs ≠ [] → cs.length < n →
    Tot F (fun x => Cs E.max x.1 ∧ Adv x.2 cs) (charsetLoop E ic sub n t cs)
  | 0, t, cs, _, _, _, _, _, h => by omega
  | n + 1, t, [], _, _, _, _, h, _ => (h rfl).elim
  | n + 1, t, c :: cs, he, hp, hx, ht, _, hn => by
    unfold charsetLoop
    have hs : Adv cs (c :: cs) := Adv.cons (List.suffix_refl _)
    have fin : ∀ x : Bool × Nat × Token × List Nat,
        (x.1 = true ∨ x.2.1 ≤ E.max) ∧ Cs E.max x.2.2.1 ∧ Adv x.2.2.2 (c :: cs) →
        Tot F (fun x => Cs E.max x.1 ∧ Adv x.2 (c :: cs))
          (match x.2.2.2 with
          | [] => throw_ "Unexpected end of regex (missing ']')"
          | d :: ds => do
            let (t, cs) ←
              if d = 45 ∧ ds.headD 0 ≠ 93 then charsetRange E ic x.1 x.2.1 x.2.2.1 ds
              else if x.1 then .ok (x.2.2.1, d :: ds)
              else .ok (addRange E ic (x.2.1, x.2.1) x.2.2.1, d :: ds)
            match cs with
            | [] => .error (.ub "charset at the end")
            | c :: cs' => if c ≠ 93 then charsetLoop E ic sub n t (c :: cs') else .ok (t, cs')) := by
      rintro ⟨chset, prev, t, r⟩ ⟨h1, h2, h3⟩
      dsimp only at h1 h2 h3 ⊢
      cases r with
      | nil => trivial
      | cons d ds =>
        dsimp only
        have hx' := textOk_suffix hx h3.suffix
        have fin2 : ∀ x : Token × List Nat, Cs E.max x.1 ∧ x.2 <:+ (d :: ds) ∧ x.2 ≠ [] →
            Tot F (fun x => Cs E.max x.1 ∧ Adv x.2 (c :: cs)) (match x.2 with
              | [] => .error (.ub "charset at the end")
              | c :: cs' => if c ≠ 93 then charsetLoop E ic sub n x.1 (c :: cs') else .ok (x.1, cs')) := by
          rintro ⟨t', r⟩ ⟨a1, a2, a3⟩
          dsimp only at a1 a2 a3 ⊢
          cases r with
          | nil => exact (a3 rfl).elim
          | cons e es =>
            have hsuf : e :: es <:+ c :: cs := a2.trans h3.suffix
            have hlen := (Adv.trans_left a2 h3).length
            dsimp only
            split
            · refine (charsetLoop_tot hE ic n t' (e :: es) (fun hm => he (hsuf.subset hm))
                (fun hi => hp (hi.trans hsuf.isInfix)) (textOk_suffix hx hsuf) a1 (by simp) (by omega)).mono
                fun a ha => ⟨ha.1, ha.2.trans_right hsuf⟩
            · exact ⟨a1, Adv.trans_left (List.suffix_cons ..) (Adv.trans_left a2 h3)⟩
        split
        · exact Tot.bind (Tot.of_total ((charsetRange_total hE ic chset (textOk_suffix hx' (List.suffix_cons ..)) h2).mono
              fun a ha => ⟨ha.1, ha.2.1.suffix.trans (List.suffix_cons ..), ha.2.2⟩)) fin2
        split
        · exact fin2 (t, d :: ds) ⟨h2, List.suffix_refl _, by simp⟩
        · rename_i hc
          exact fin2 (_, d :: ds) ⟨addRange_cs hE ic (Nat.le_refl _) (h1.resolve_left hc) h2, List.suffix_refl _, by simp⟩
    have hx2 := textOk_suffix hx (List.suffix_cons ..)
    split
    · subst_vars
      refine (Tot.of_total (escapeSeq_total hE hx2)).bind fun a ha => ?_
      obtain ⟨e, r⟩ := a
      cases e with
      | text s =>
        refine (he (by simp) s ha.1).bind fun b hb => ?_
        exact fin (true, 0, t.insertToken b, r) ⟨.inl rfl, ht.insertToken hb, ha.2.trans hs⟩
      | char d => exact fin (false, d, t, r) ⟨.inr ha.1, ht, ha.2.trans hs⟩
    split
    · rename_i h92 h91
      obtain ⟨rfl, h58⟩ := h91
      cases cs with
      | nil => simp at h58
      | cons d ds =>
        simp only [List.head?_cons, Option.some.injEq] at h58
        subst h58
        refine (Tot.of_total (posixClass_total E ds)).bind fun a ha => ?_
        obtain ⟨str, neg, r⟩ := a
        refine (hp ⟨[], ds, rfl⟩ str ha.1).bind fun b hb => ?_
        refine fin (true, 0, t.insertToken (if neg then b.negate E.max else b), r) ⟨.inl rfl, ht.insertToken ?_, ?_⟩
        · split
          · exact hb.negate
          · exact hb
        · exact (ha.2.trans (Adv.cons (List.suffix_refl _))).trans hs
    · exact fin (false, c, t, cs) ⟨.inr (hx c (by simp)), ht, hs⟩

theorem charset_tot {F : Prop} {E : TokEnv} (hE : TokEnvOk E) (ic : Bool) (d : Nat) (cs : List Nat)
    (he : 92 ∈ cs → ∀ str, EscText E str → Tot F (fun x => Cs E.max x.1) (charset E ic d str.tail))
    (hp : [91, 58] <:+: cs → ∀ str, PosixText E str → Tot F (fun x => Cs E.max x.1) (charset E ic d str.tail))
    (hx : TextOk E cs) :
    Tot F (fun x => CharsetOk E.max x.1 ∧ Adv x.2 cs) (charset E ic (d + 1) cs) := by
  unfold charset
  split
  · trivial
  rename_i c cs
  have fin : ∀ r : List Nat, r <:+ c :: cs → r ≠ [] →
      Tot F (fun x => CharsetOk E.max x.1 ∧ Adv x.2 (c :: cs)) (do
        let (t, rest) ← charsetLoop E ic (fun str => do let (t, _) ← charset E ic d str; .ok t)
          (r.length + 1) [] r
        let t := if c = 94 then t.negate E.max else t
        if t = [] then throw_ "Empty charset not allowed" else .ok (t, rest)) := by
    intro r hr hne
    have sub : ∀ str, Tot F (fun x => Cs E.max x.1) (charset E ic d str) →
        Tot F (Cs E.max) (do let (t, _) ← charset E ic d str; .ok t : M Token) :=
      fun str h => h.bind fun a ha => ha
    refine (charsetLoop_tot hE ic (r.length + 1) [] r (fun h str hs => sub _ (he (hr.subset h) str hs))
      (fun h str hs => sub _ (hp (h.trans hr.isInfix) str hs)) (textOk_suffix hx hr) Cs.nil hne (by omega)).bind ?_
    rintro ⟨t, rest⟩ ⟨h1, h2⟩
    dsimp only at h1 h2 ⊢
    have h3 : Cs E.max (if c = 94 then t.negate E.max else t) := by
      split
      · exact h1.negate
      · exact h1
    generalize (if c = 94 then t.negate E.max else t) = u at h3 ⊢
    split
    · trivial
    · rename_i hu
      exact ⟨⟨h3.normal, h3.within, hu⟩, h2.trans_right hr⟩
  by_cases hc : c = 94
  · have := fin cs (List.suffix_cons ..)
    simp only [if_pos hc] at this ⊢
    split
    · trivial
    · rename_i h
      exact this h
  · have := fin (c :: cs) (List.suffix_refl _) (by simp)
    simp only [if_neg hc] at this ⊢
    exact this

theorem posixText_ok {E : TokEnv} (hE : TokEnvOk E) {str : List Nat} (h : PosixText E str) : TextOk E str.tail := by
  have hb := hE.big
  obtain ⟨name, h⟩ := h
  intro c hc
  have hc := List.mem_of_mem_tail hc
  have hcl : ∀ is : Nat → Bool, E.size = 1 → ∀ c ∈ classText is, c ≤ E.max := by
    intro is h1 c hc
    have := hE.byte h1
    simp only [classText, List.mem_append, List.mem_filter, List.mem_range'_1, List.mem_singleton] at hc
    omega
  unfold posixTexts at h
  split at h
  · rename_i h1
    have hlit : ∀ s ∈ [[91, 32, 9, 93], chars "[\\x00-" ++ [31, 127, 93], chars "[0-9]", [91, 33, 45, 126, 93],
      [91, 32, 45, 126, 93], chars "[!\"#$%&'()*+,\\-./:;<=>?@[\\\\\\]^_`{|}~]", [91, 32, 9, 13, 10, 11, 12, 93],
      chars "[0-9A-Fa-f]"], ∀ c ∈ s, c ≤ 127 := by decide +kernel
    simp only [List.mem_cons, Prod.mk.injEq, List.not_mem_nil, or_false] at h
    rcases h with h | h | h | h | h | h | h | h | h | h | h | h <;> obtain ⟨_, rfl⟩ := h <;>
      first
      | exact hcl _ h1 c hc
      | exact Nat.le_trans (hlit _ (by simp) c hc) hb
  · have hlit : ∀ s ∈ [chars "[\\p{Ll}\\p{Lu}\\p{Nd}]", chars "[\\p{Ll}\\p{Lu}]", chars "[\\p{Zs}" ++ [9, 93],
      chars "[\\p{Cc}]", chars "[\\p{Nd}]", chars "[^\\p{Z}\\p{C}]", chars "[\\p{Ll}]", chars "[\\p{C}]",
      chars "[\\p{P}\\p{S}]", chars "[\\p{Z}" ++ [9, 13, 10, 11, 12, 93], chars "[\\p{Lu}]",
      chars "[0-9A-Fa-f]"], ∀ c ∈ s, c ≤ 127 := by decide +kernel
    simp only [List.mem_cons, Prod.mk.injEq, List.not_mem_nil, or_false] at h
    rcases h with h | h | h | h | h | h | h | h | h | h | h | h <;> obtain ⟨_, rfl⟩ := h <;>
      exact Nat.le_trans (hlit _ (by simp) c hc) hb

/-- Texts without `[:`. -/
theorem not_infix_of_split {cs : List Nat} (h : ∀ i : Nat, cs[i]? = some 91 → cs[i + 1]? ≠ some 58) :
    ¬ [91, 58] <:+: cs := by
  rintro ⟨a, b, rfl⟩
  refine h a.length (by simp) ?_
  rw [List.append_assoc, List.getElem?_append_right (by omega)]
  simp

/-- No charset contains undefined behaviour. -/
theorem charset_noUb {E : TokEnv} (hE : TokEnvOk E) (ic : Bool) : ∀ (d : Nat) (cs : List Nat), TextOk E cs →
    Tot True (fun x => CharsetOk E.max x.1 ∧ Adv x.2 cs) (charset E ic d cs)
  | 0, _, _ => trivial
  | d + 1, cs, hx => charset_tot hE ic d cs
      (fun _ str hs => (charset_noUb hE ic d _ (escText_ok hE hs)).mono fun a ha => ⟨ha.1.normal, ha.1.within⟩)
      (fun _ str hs => (charset_noUb hE ic d _ (posixText_ok hE hs)).mono fun a ha => ⟨ha.1.normal, ha.1.within⟩) hx

theorem charset_escText {E : TokEnv} (hE : TokEnvOk E) (ic : Bool) {d : Nat} (h1 : charsetDepth ≤ d + 2)
    (h2 : d ≤ charsetDepth) {str : List Nat} (h : EscText E str) :
    Total (fun x => CharsetOk E.max x.1 ∧ Adv x.2 str.tail) (charset E ic d str.tail) := by
  have hx := escText_ok hE h
  rcases h with h | ⟨name, h⟩
  · have : ∀ s ∈ [chars "[0-9]", chars "[^0-9]", [91, 32, 9, 10, 13, 12, 11, 93],
        [91, 94, 32, 9, 10, 13, 12, 11, 93], chars "[_0-9A-Za-z]", chars "[^_0-9A-Za-z]"],
        92 ∉ s.tail ∧ 91 ∉ s.tail := by decide
    obtain ⟨a1, a2⟩ := this str h
    obtain ⟨d, rfl⟩ : ∃ d', d = d' + 1 := ⟨d - 1, by simp only [charsetDepth] at h1; omega⟩
    refine Tot.total (charset_tot (F := False) hE ic d _ (fun h => (a1 h).elim) (fun h => (a2 (h.subset (by simp))).elim) hx)
      fun h => ?_
    have := charset_tot (F := False) hE ic d _ (fun h => (a1 h).elim) (fun h => (a2 (h.subset (by simp))).elim) hx
    rw [h] at this
    exact this
  · exact (charset_noUb hE ic d _ hx).total (hE.nest ic d name str h1 h2 h)

theorem Tot.total_of_false {α : Type} {Q : α → Prop} {x : M α} (h : Tot False Q x) : Total Q x :=
  h.total fun hf => by rw [hf] at h; exact h

theorem posixText_infix {E : TokEnv} (hE : TokEnvOk E) {str : List Nat} (h : PosixText E str) :
    ¬ [91, 58] <:+: str.tail := by
  obtain ⟨name, h⟩ := h
  have hcl : ∀ is : Nat → Bool, (∀ c, is c = true → c ≠ 91) → ¬ [91, 58] <:+: (classText is).tail := by
    intro is hi hinf
    have : 91 ∈ (classText is).tail := hinf.subset (by simp)
    simp only [classText, List.cons_append, List.nil_append, List.tail_cons, List.mem_append, List.mem_filter,
      List.mem_singleton] at this
    rcases this with h | h
    · exact hi 91 h.2 rfl
    · omega
  have dec : ∀ s : List Nat, (List.range s.length).all (fun i => !(s[i]? == some 91 && s[i + 1]? == some 58)) = true →
      ¬ [91, 58] <:+: s := by
    intro s hs
    refine not_infix_of_split fun i h1 h2 => ?_
    have hi : i < s.length := (List.getElem?_eq_some_iff.1 h1).1
    have := List.all_eq_true.1 hs i (List.mem_range.2 hi)
    rw [h1, h2] at this
    simp at this
  unfold posixTexts at h
  split at h
  · simp only [List.mem_cons, Prod.mk.injEq, List.not_mem_nil, or_false] at h
    rcases h with h | h | h | h | h | h | h | h | h | h | h | h <;> obtain ⟨_, rfl⟩ := h
    · exact hcl _ fun c hc => (hE.classes c (by simp [hc])).1
    · exact hcl _ fun c hc => (hE.classes c (by simp [hc])).1
    · exact dec _ (by decide +kernel)
    · exact dec _ (by decide +kernel)
    · exact dec _ (by decide +kernel)
    · exact dec _ (by decide +kernel)
    · exact hcl _ fun c hc => (hE.classes c (by simp [hc])).1
    · exact dec _ (by decide +kernel)
    · exact dec _ (by decide +kernel)
    · exact dec _ (by decide +kernel)
    · exact hcl _ fun c hc => (hE.classes c (by simp [hc])).1
    · exact dec _ (by decide +kernel)
  · simp only [List.mem_cons, Prod.mk.injEq, List.not_mem_nil, or_false] at h
    rcases h with h | h | h | h | h | h | h | h | h | h | h | h <;> obtain ⟨_, rfl⟩ := h <;>
      exact dec _ (by decide +kernel)

theorem charset_posixText {E : TokEnv} (hE : TokEnvOk E) (ic : Bool) {d : Nat} (h1 : charsetDepth ≤ d + 1)
    (h2 : d ≤ charsetDepth) {str : List Nat} (h : PosixText E str) :
    Total (fun x => CharsetOk E.max x.1 ∧ Adv x.2 str.tail) (charset E ic d str.tail) := by
  obtain ⟨d, rfl⟩ : ∃ d', d = d' + 1 := ⟨d - 1, by simp only [charsetDepth] at h1; omega⟩
  exact (charset_tot hE ic d _
    (fun _ s hs => Tot.of_total ((charset_escText hE ic (by omega) (by omega) hs).mono fun a ha => ⟨ha.1.normal, ha.1.within⟩))
    (fun h' => (posixText_infix hE h h').elim) (posixText_ok hE h)).total_of_false

/-- Reading a charset: no undefined behaviour, no endless loop, and a charset in normal
form. -/
theorem charset_total {E : TokEnv} (hE : TokEnvOk E) (ic : Bool) {cs : List Nat} (hx : TextOk E cs) :
    Total (fun x => CharsetOk E.max x.1 ∧ Adv x.2 cs) (charset E ic charsetDepth cs) :=
  (charset_tot hE ic 7 cs
    (fun _ s hs => Tot.of_total ((charset_escText hE ic (by decide) (by decide) hs).mono fun a ha => ⟨ha.1.normal, ha.1.within⟩))
    (fun _ s hs => Tot.of_total ((charset_posixText hE ic (by decide) (by decide) hs).mono fun a ha => ⟨ha.1.normal, ha.1.within⟩))
    hx).total_of_false

end Lexertl
