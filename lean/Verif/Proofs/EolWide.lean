import Verif.Proofs.Build
import Verif.Proofs.EolLow
import Verif.Spec.Line

/-
Machines of all character widths: the words of rules ending in `$`.
-/
namespace Lexertl.Line
open Spec

/-- A character the table accepts for a charset stands for one of the charset: itself or,
beyond the last code point, one of plane 2 with the same lower bytes. -/
def stand (tr : Traits) (c : Nat) : Nat := if c < charsOf tr then c else 0x20000 + c % 65536

/-- As `stand`, for symbols. -/
def standS (tr : Traits) : Sym → Sym
  | .ch c => .ch (stand tr c)
  | s => s

theorem accepts_stand {tr : Traits} {t : Token} (h : Wide.SetOk tr t) {c : Nat} (hc : Mem c (Wide.accepts tr t)) :
    Mem (stand tr c) t := by
  unfold stand
  by_cases hlt : c < charsOf tr
  · rw [if_pos hlt]; exact (Wide.accepts_mem h hlt).1 hc
  · rw [if_neg hlt]
    have hin : ∀ d, Mem d t → d < charsOf tr := by
      rintro d ⟨x, hx, _, h2⟩
      have h3 : x.2 ≤ charsOf tr - 1 := h.2.2.1 x hx
      have h4 : 0 < charsOf tr := by unfold charsOf; split <;> (try split) <;> decide
      omega
    unfold Wide.accepts at hc
    cases hcm : tr.compressed with
    | false => rw [hcm] at hc; exact absurd (hin c hc) hlt
    | true =>
      simp only [hcm, if_true, Slice.accepted] at hc
      cases h24 : tr.char24 with
      | false => simp only [h24, Bool.false_eq_true, if_false] at hc; exact absurd (hin c hc) hlt
      | true =>
        simp only [h24, if_true] at hc
        obtain ⟨x, hx, h1⟩ := hc
        obtain ⟨r, hr, hx⟩ := List.mem_flatMap.1 hx
        rcases h.2.2.2 hcm h24 r hr with hf | ⟨hf1, hf2⟩
        · rw [Wide.widen24_two hf, List.mem_singleton] at hx
          subst hx
          exact absurd (hin c ⟨x, hr, h1⟩) hlt
        · exact ⟨r, hr, by omega, by omega⟩

theorem pow_map {L K : List Sym → Prop} {f : Sym → Sym} (h : ∀ w, L w → K (w.map f)) :
    ∀ k w, Pow L k w → Pow K k (w.map f)
  | 0, w, hw => by rw [show w = [] from hw]; rfl
  | k + 1, w, hw => by
    obtain ⟨u, v, rfl, h1, h2⟩ := hw
    exact ⟨u.map f, v.map f, by simp, h u h1, pow_map h k v h2⟩

theorem mapChars_map {P : Token → Prop} {f : Nat → Nat} {fs : Sym → Sym} (hb : fs .bol = .bol) (he : fs .eol = .eol)
    (hf : ∀ c, fs (.ch c) = .ch (f c)) (g : Token → Token)
    (h : ∀ t c, P t → Mem c (g t) → Mem (f c) t) (r : Re) (hr : r.AllChars P) :
    ∀ w, (r.mapChars g).Matches w → r.Matches (w.map fs) := by
  induction r with
  | chars t => rintro w ⟨c, hc, rfl⟩; exact ⟨f c, h t c hr hc, by simp [hf]⟩
  | bol => rintro w rfl; show _ = _; simp [hb]
  | eol => rintro w rfl; show _ = _; simp [he]
  | seq l r ihl ihr =>
    rintro w ⟨u, v, rfl, h1, h2⟩
    exact ⟨_, _, List.map_append, ihl hr.1 u h1, ihr hr.2 v h2⟩
  | alt l r ihl ihr =>
    rintro w (h1 | h1)
    · exact .inl (ihl hr.1 w h1)
    · exact .inr (ihr hr.2 w h1)
  | opt r _ ih =>
    rintro w (rfl | h1)
    · exact .inl rfl
    · exact .inr (ih hr w h1)
  | star r _ ih => rintro w ⟨n, hw⟩; exact ⟨n, pow_map (ih hr) n w hw⟩
  | plus r _ ih => rintro w ⟨n, h1, hw⟩; exact ⟨n, h1, pow_map (ih hr) n w hw⟩
  | rep r _ _ _ ih => rintro w ⟨n, h1, h2, hw⟩; exact ⟨n, h1, h2, pow_map (ih hr) n w hw⟩

/-- A word of the table is the encoding of symbols standing for a word of the rule. -/
theorem words_stand {tr : Traits} {e : Option Re} (he : CharSets tr e) {w : List Sym} (hw : Wide.words tr e w) :
    ∃ v : List Sym, w = v.flatMap (Wide.encode tr) ∧ (∀ s ∈ v, Wide.Fits tr s) ∧ RMatches e (v.map (standS tr)) := by
  obtain ⟨v, hv, rfl⟩ := hw
  cases e with
  | none =>
    have : v = [] := hv
    subst this
    exact ⟨[], rfl, by simp, rfl⟩
  | some r =>
    have hr : r.AllChars (Wide.SetOk tr) := he
    have hv' : (r.mapChars (Wide.accepts tr)).Matches v := hv
    refine ⟨v, rfl, ?_, mapChars_map (f := stand tr) rfl rfl (fun _ => rfl) _ (fun t c ht => accepts_stand ht) r hr v hv'⟩
    exact Wide.matches_forall (P := fun t => Within (Wide.topOf tr) t) (Q := Wide.Fits tr) trivial trivial
      (fun t c ht ⟨x, hx, _, h2⟩ => Nat.le_trans h2 (ht x hx)) _
      (Wide.mapChars_all _ (fun t ht => Wide.accepts_top ht) r hr) v hv'

theorem fix_stand {tr : Traits} {e : Option Re} (he : CharSets tr e) {sb : Bool} {w : List Sym}
    (hw : FixBol sb (Wide.words tr e) w) :
    ∃ v : List Sym, w = v.flatMap (Wide.encode tr) ∧ (∀ s ∈ v, Wide.Fits tr s) ∧ FixBol sb (RMatches e) (v.map (standS tr)) := by
  rcases hw with h | ⟨h1, h2, w', rfl, h⟩
  · obtain ⟨v, h1, h2, h3⟩ := words_stand he h
    exact ⟨v, h1, h2, .inl h3⟩
  · obtain ⟨v, rfl, h4, h5⟩ := words_stand he h
    refine ⟨.bol :: v, rfl, ?_, .inr ⟨h1, ?_, _, rfl, h5⟩⟩
    · intro s hs
      rcases List.mem_cons.1 hs with rfl | hs
      · trivial
      · exact h4 s hs
    · rwa [← Wide.words_anch he]

theorem encode_eol (tr : Traits) {s : Sym} (h : Sym.eol ∈ Wide.encode tr s) : s = .eol := by
  cases s with
  | ch c => simp only [Wide.encode] at h; split at h <;> simp at h
  | bol => simp [Wide.encode] at h
  | eol => rfl

/-- Where `$` stands in an encoded word. -/
theorem split_enc (tr : Traits) : ∀ (v u w : List Sym), v.flatMap (Wide.encode tr) = u ++ .eol :: w →
    ∃ v1 v2, v = v1 ++ .eol :: v2 ∧ u = v1.flatMap (Wide.encode tr) ∧ w = v2.flatMap (Wide.encode tr)
  | [], u, w, h => by simp at h
  | s :: v, u, w, h => by
    rw [List.flatMap_cons] at h
    rcases List.append_eq_append_iff.1 h with ⟨a, h1, h2⟩ | ⟨a, h1, h2⟩
    · obtain ⟨v1, v2, rfl, rfl, rfl⟩ := split_enc tr v a w h2
      exact ⟨s :: v1, v2, rfl, by rw [h1]; rfl, rfl⟩
    · cases a with
      | nil =>
        rw [List.append_nil] at h1
        obtain ⟨v1, v2, rfl, h3, rfl⟩ := split_enc tr v [] w (by simpa using h2.symm)
        refine ⟨s :: v1, v2, rfl, ?_, rfl⟩
        rw [List.flatMap_cons, ← h3, List.append_nil, h1]
      | cons x a =>
        simp only [List.cons_append] at h2
        injection h2 with h3 h4
        subst h3
        have hs : s = .eol := encode_eol tr (by rw [h1]; simp)
        subst hs
        have h5 : u ++ .eol :: a = [] ++ [Sym.eol] := h1.symm
        have : u = [] ∧ a = [] := by
          cases u with
          | nil => simpa using h5
          | cons y u => simp at h5
        obtain ⟨rfl, rfl⟩ := this
        exact ⟨[], v, rfl, rfl, by simpa using h4⟩

/-- An encoded word with an encoded beginning. -/
theorem prefix_enc (tr : Traits) : ∀ (a v : List Sym) (w : List Sym), (∀ s ∈ a, Wide.Fits tr s) →
    (∀ s ∈ v, Wide.Fits tr s) → v.flatMap (Wide.encode tr) = a.flatMap (Wide.encode tr) ++ w →
    ∃ v', v = a ++ v' ∧ v'.flatMap (Wide.encode tr) = w
  | [], v, w, _, _, h => ⟨v, rfl, h⟩
  | s :: a, [], w, _, _, h => by
    rw [List.flatMap_nil, List.flatMap_cons, List.append_assoc] at h
    exact absurd (List.append_eq_nil_iff.1 h.symm).1 (Wide.encode_ne tr s)
  | s :: a, t :: v, w, ha, hv, h => by
    rw [List.flatMap_cons, List.flatMap_cons, List.append_assoc] at h
    obtain ⟨rfl, h2⟩ := Wide.encode_inj tr (hv t (by simp)) (ha s (by simp)) h
    obtain ⟨v', rfl, h3⟩ := prefix_enc tr a v w (fun x hx => ha x (by simp [hx])) (fun x hx => hv x (by simp [hx])) h2
    exact ⟨v', rfl, h3⟩

/-- The last byte of a character. -/
theorem encode_last {tr : Traits} {s : Sym} {u : List Sym} {x : Nat} (h : Wide.encode tr s = u ++ [.ch x]) :
    ∃ c, s = .ch c ∧ ((tr.compressed = false ∧ c = x) ∨ (tr.compressed = true ∧ c % 256 = x)) := by
  cases s with
  | ch c =>
    refine ⟨c, rfl, ?_⟩
    cases hc : tr.compressed with
    | false =>
      left
      simp only [Wide.encode, hc, Bool.false_eq_true, if_false] at h
      have := congrArg List.getLast? h
      simp at this
      exact ⟨rfl, this⟩
    | true =>
      right
      refine ⟨rfl, ?_⟩
      have h := congrArg List.getLast? h
      cases h24 : tr.char24 <;>
        simp [Wide.encode, hc, bytesOf, h24, Slice.charBytes2, Slice.charBytes3] at h <;> exact h
  | bol =>
    have := congrArg List.getLast? h
    simp [Wide.encode] at this
  | eol =>
    have := congrArg List.getLast? h
    simp [Wide.encode] at this

/-- The first byte of a character. -/
theorem encode_first {tr : Traits} {s : Sym} (hs : Wide.Fits tr s) {a w : List Sym} {x : Nat}
    (h : Wide.encode tr s ++ a = .ch x :: w) : ∃ c, s = .ch c ∧ firstByte tr c = x := by
  cases s with
  | ch c =>
    refine ⟨c, rfl, ?_⟩
    simp only [Wide.Fits] at hs
    cases hc : tr.compressed with
    | false => simp [Wide.encode, hc] at h; simp [firstByte, hc, h.1]
    | true =>
      cases h24 : tr.char24 with
      | false =>
        have htop : Wide.topOf tr = 65535 := by simp [Wide.topOf, Slice.top, hc, h24]
        simp [Wide.encode, hc, bytesOf, h24, Slice.charBytes2] at h
        simp only [firstByte, hc, h24, if_true, Bool.false_eq_true, if_false]
        omega
      | true =>
        have htop : Wide.topOf tr = 16777215 := by simp [Wide.topOf, Slice.top, hc, h24]
        simp [Wide.encode, hc, bytesOf, h24, Slice.charBytes3] at h
        simp only [firstByte, hc, h24, if_true]
        omega
  | bol => simp [Wide.encode] at h
  | eol => simp [Wide.encode] at h

/-- The bytes of a small character. -/
theorem encode_small {tr : Traits} (hc : tr.compressed = true) {c : Nat} (h : c < 256) :
    Wide.encode tr (.ch c) = List.replicate (if tr.char24 then 2 else 1) (.ch 0) ++ [.ch c] := by
  cases h24 : tr.char24 with
  | false =>
    simp [Wide.encode, hc, bytesOf, h24, Slice.charBytes2]
    omega
  | true =>
    simp [Wide.encode, hc, bytesOf, h24, Slice.charBytes3]
    omega

theorem stand_cr {tr : Traits} {c : Nat} (h : CrLike tr c) : CrLike tr (stand tr c) := by
  unfold stand
  split
  · exact h
  · rename_i hn
    rcases h with h | ⟨h1, h2⟩
    · exfalso
      unfold charsOf at hn
      split at hn <;> (try split at hn) <;> omega
    · exact .inr ⟨h1, by omega⟩

theorem stand_line {tr : Traits} {c : Nat} (h : firstByte tr c = 13 ∨ firstByte tr c = 10) : stand tr c = c := by
  unfold stand
  rw [if_pos]
  unfold charsOf
  unfold firstByte at h
  cases hc : tr.compressed <;> cases h24 : tr.char24 <;> simp only [hc, h24, if_true, if_false, Bool.false_eq_true] at h ⊢ <;>
    omega

end Lexertl.Line
