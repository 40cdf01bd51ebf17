import Verif.Proofs.UnicodeData
import Verif.Proofs.Texts

/-
Unicode properties: what the tokeniser makes of their texts.
-/
namespace Lexertl.Uni
open Spec Unicode Reading

/-! ### Digits -/

theorem digit_hex (up : Bool) {n : Nat} (h : n < 16) : IsHexDigit (digit up n) := by
  unfold digit IsHexDigit
  repeat' split
  all_goals omega

theorem digit_val (up : Bool) {n : Nat} (h : n < 16) :
    (if digit up n ≤ 57 then digit up n - 48 else if digit up n ≤ 70 then digit up n - 55 else digit up n - 87) = n := by
  unfold digit
  repeat' split
  all_goals omega

theorem digitsTo_spec (up : Bool) : ∀ (k n : Nat) (acc : List Nat), n < 16 ^ (k + 1) → (∀ d ∈ acc, IsHexDigit d) →
    (∀ d ∈ digitsTo up (k + 1) n acc, IsHexDigit d) ∧ digitsTo up (k + 1) n acc ≠ [] ∧
    (digitsTo up (k + 1) n acc).foldl (fun n d => n * 16 + (if d ≤ 57 then d - 48 else if d ≤ 70 then d - 55 else d - 87)) 0 =
      acc.foldl (fun n d => n * 16 + (if d ≤ 57 then d - 48 else if d ≤ 70 then d - 55 else d - 87)) n
  | k, n, acc, hn, ha => by
    unfold digitsTo
    split
    · rename_i h
      refine ⟨fun d hd => ?_, by simp, ?_⟩
      · simp only [List.mem_cons] at hd
        rcases hd with rfl | hd
        · exact digit_hex up h
        · exact ha d hd
      · rw [List.foldl_cons, digit_val up h]
        simp
    · rename_i h
      cases k with
      | zero => simp at hn; omega
      | succ k =>
        have hn' : n / 16 < 16 ^ (k + 1) := by
          rw [Nat.pow_succ] at hn
          exact Nat.div_lt_of_lt_mul (by rw [Nat.mul_comm]; exact hn)
        obtain ⟨h1, h2, h3⟩ := digitsTo_spec up k (n / 16) (digit up (n % 16) :: acc) hn' (fun d hd => by
          simp only [List.mem_cons] at hd
          rcases hd with rfl | hd
          · exact digit_hex up (Nat.mod_lt _ (by decide))
          · exact ha d hd)
        refine ⟨h1, h2, h3.trans ?_⟩
        rw [List.foldl_cons, digit_val up (Nat.mod_lt _ (by decide))]
        congr 1
        omega

theorem foldl_zeros (k : Nat) (ds : List Nat) :
    (List.replicate k 48 ++ ds).foldl (fun n d => n * 16 + (if d ≤ 57 then d - 48 else if d ≤ 70 then d - 55 else d - 87)) 0 =
      ds.foldl (fun n d => n * 16 + (if d ≤ 57 then d - 48 else if d ≤ 70 then d - 55 else d - 87)) 0 := by
  induction k with
  | zero => simp
  | succ k ih =>
    rw [List.replicate_succ, List.cons_append, List.foldl_cons]
    simpa using ih

theorem digits_spec (up : Bool) {n : Nat} (hn : n ≤ 0x10ffff) :
    (∀ d ∈ digits up n, IsHexDigit d) ∧ digits up n ≠ [] ∧ hexVal (digits up n) = n := by
  obtain ⟨h1, h2, h3⟩ := digitsTo_spec up 15 n [] (by omega) (by simp)
  simp only [List.foldl_nil] at h3
  unfold digits
  dsimp only
  split
  · refine ⟨fun d hd => ?_, by simp [h2], ?_⟩
    · simp only [List.mem_append, List.mem_replicate] at hd
      rcases hd with ⟨_, rfl⟩ | hd
      · exact .inl (by decide)
      · exact h1 d hd
    · unfold hexVal
      rw [foldl_zeros]
      exact h3
  · exact ⟨h1, h2, h3⟩

/-! ### Texts in brackets -/

/-- What may follow a number in the text of a property. -/
def Ends (rest : List Nat) : Prop := ∃ c cs, rest = c :: cs ∧ (c = 92 ∨ c = 93)

theorem Ends.noHex {rest : List Nat} (h : Ends rest) : ∀ d ∈ rest.head?, ¬ IsHexDigit d := by
  obtain ⟨c, cs, rfl, hc⟩ := h
  simp only [List.head?_cons, Option.mem_some_iff, forall_eq']
  unfold IsHexDigit
  omega

theorem Ends.noDash {rest : List Nat} (h : Ends rest) : NoDash rest := by
  obtain ⟨c, cs, rfl, hc⟩ := h
  unfold NoDash
  simp only [List.head?_cons, Option.some.injEq]
  omega

theorem chr_digits {max : Nat} (up : Bool) {n : Nat} (hn : n ≤ max) (hb : n ≤ 0x10ffff) {rest : List Nat} (hr : ∀ d ∈ rest.head?, ¬ IsHexDigit d) :
    Chr max (92 :: 120 :: digits up n) n rest := by
  obtain ⟨h1, h2, h3⟩ := digits_spec up hb
  have := EscChar.hex (max := max) (digits up n) rest h2 h1 hr (by omega)
  rw [h3] at this
  exact .esc _ _ _ this

/-- One range of a property. -/
theorem range_brackets {E : TokEnv} (ic up : Bool) {r : Nat × Nat} (h1 : r.1 ≤ r.2) (h2 : r.2 ≤ E.max) (hb : r.2 ≤ 0x10ffff) {rest : List Nat}
    (hr : Ends rest) : Brackets E ic .item (rangeText up r) (Closed E ic fun c => r.1 ≤ c ∧ c ≤ r.2) rest := by
  unfold rangeText
  split
  · rename_i h
    have : (fun c => r.1 ≤ c ∧ c ≤ r.2) = (· = r.1) := by
      funext c
      exact propext ⟨fun _ => by omega, fun _ => by omega⟩
    rw [this]
    exact .char _ _ _ (chr_digits up (by omega) (by omega) hr.noHex) hr.noDash
  · have := Brackets.range (E := E) (ic := ic) (92 :: 120 :: digits up r.1) r.1 (92 :: 120 :: digits up r.2) r.2 rest
      (chr_digits up (by omega) (by omega) (by
        simp only [List.cons_append, List.head?_cons, Option.mem_some_iff, forall_eq']
        unfold IsHexDigit
        omega)) (chr_digits up h2 hb hr.noHex) (by simp) h1
    simpa using this

theorem rangeText_head (up : Bool) (r : Nat × Nat) : ∃ w, rangeText up r = 92 :: w := by
  unfold rangeText
  split
  · exact ⟨_, rfl⟩
  · exact ⟨_, rfl⟩

/-- The members of a list of sets. -/
def Any {α : Type} (S : α → Nat → Prop) (xs : List α) (c : Nat) : Prop := ∃ x ∈ xs, S x c

/-- A list of items, each starting with a backslash. -/
theorem items_brackets {E : TokEnv} {ic : Bool} {α : Type} {f : α → List Nat} {S : α → Nat → Prop} :
    ∀ {xs : List α} {b : Bool}, xs ≠ [] → (∀ x ∈ xs, ∃ w, f x = 92 :: w) → (∀ x ∈ xs, ∀ rest, Ends rest → Brackets E ic .item (f x) (S x) rest) →
      Brackets E ic (.items b) (xs.flatMap f ++ [93]) (Any S xs) []
  | [], _, h, _, _ => absurd rfl h
  | [x], b, _, hh, hi => by
    obtain ⟨w, hw⟩ := hh x (by simp)
    have := Brackets.last (E := E) (ic := ic) b (f x) (S x) (.inr (by rw [hw]; simp)) (hi x (by simp) [93] ⟨93, [], rfl, .inr rfl⟩)
    have e : Any S [x] = S x := by funext c; simp [Any]
    rw [e]
    simpa using this
  | x :: y :: xs, b, _, hh, hi => by
    obtain ⟨w, hw⟩ := hh x (by simp)
    obtain ⟨v, hv⟩ := hh y (by simp)
    have ih := items_brackets (E := E) (ic := ic) (f := f) (S := S) (xs := y :: xs) (b := false) (by simp) (fun z hz => hh z (by simp [hz]))
      (fun z hz => hi z (by simp [hz]))
    have := Brackets.more (E := E) (ic := ic) b (f x) (S x) _ _ (.inr (by rw [hw]; simp)) (hi x (by simp) _
      ⟨92, v ++ xs.flatMap f ++ [93], by rw [List.flatMap_cons, hv]; simp, .inl rfl⟩) ih
    have e : Any S (x :: y :: xs) = fun c => S x c ∨ Any S (y :: xs) c := by
      funext c
      simp [Any]
    rw [e]
    rw [List.flatMap_cons, List.append_assoc]
    exact this

theorem closed_any {E : TokEnv} {ic : Bool} {α : Type} {S : α → Nat → Prop} {xs : List α} :
    Any (fun x => Closed E ic (S x)) xs = Closed E ic (Any S xs) := by
  funext c
  refine propext ⟨?_, ?_⟩
  · rintro ⟨x, hx, h | ⟨h1, d, h2, h3⟩⟩
    · exact .inl ⟨x, hx, h⟩
    · exact .inr ⟨h1, d, ⟨x, hx, h2⟩, h3⟩
  · rintro (⟨x, hx, h⟩ | ⟨h1, d, ⟨x, hx, h2⟩, h3⟩)
    · exact ⟨x, hx, .inl h⟩
    · exact ⟨x, hx, .inr ⟨h1, d, h2, h3⟩⟩

theorem bodyText_head {p : PropText} {w : List Nat} : (bodyText p ++ [93] ++ w).head? ≠ some 94 := by
  cases p with
  | ranges up rs =>
    cases rs with
    | nil => simp [bodyText]
    | cons r rs =>
      obtain ⟨v, hv⟩ := rangeText_head up r
      simp [bodyText, hv]
  | props ns =>
    cases ns with
    | nil => simp [bodyText]
    | cons r rs => simp [bodyText, refText]

/-- The text of a property that lists characters. -/
theorem ranges_whole {E : TokEnv} (ic up : Bool) {rs : List (Nat × Nat)} (hne : rs ≠ []) (h : ∀ r ∈ rs, r.1 ≤ r.2 ∧ r.2 ≤ 0x10ffff)
    (hm : ∀ r ∈ rs, r.2 ≤ E.max) : Brackets E ic .whole (bodyText (.ranges up rs) ++ [93]) (Closed E ic (Listed rs)) [] := by
  have := items_brackets (E := E) (ic := ic) (f := rangeText up) (S := fun r => Closed E ic fun c => r.1 ≤ c ∧ c ≤ r.2) (b := true) hne
    (fun r _ => rangeText_head up r) (fun r hr rest he => range_brackets ic up (h r hr).1 (hm r hr) (h r hr).2 he)
  rw [closed_any] at this
  refine .pos _ _ (by have := bodyText_head (p := .ranges up rs) (w := []); rwa [List.append_nil] at this) this ?_
  obtain ⟨r, rs', rfl⟩ := List.exists_cons_of_ne_nil hne
  exact ⟨r.1, .inl ⟨r, by simp, Nat.le_refl _, (h r (by simp)).1⟩⟩

/-! ### Properties -/

theorem hasProp_ranges {name : String} {up : Bool} {rs : List (Nat × Nat)} (h : (name, PropText.ranges up rs) ∈ table) :
    HasProp name = Listed rs := by
  funext c
  refine propext ⟨fun hc => ?_, fun hc => .listed _ _ _ _ h hc⟩
  cases hc with
  | listed _ up' rs' _ h1 h2 =>
    have := entry_unique h h1
    injection this with _ this
    exact this ▸ h2
  | refers _ ns n _ h1 h2 h3 =>
    have := entry_unique h h1
    cases this

theorem hasProp_props {name : String} {ns : List String} (h : (name, PropText.props ns) ∈ table) :
    HasProp name = Any HasProp ns := by
  funext c
  refine propext ⟨fun hc => ?_, fun ⟨n, hn, hc⟩ => .refers _ _ _ _ h hn hc⟩
  cases hc with
  | listed _ up' rs' _ h1 h2 =>
    have := entry_unique h h1
    cases this
  | refers _ ns' n _ h1 h2 h3 =>
    have := entry_unique h h1
    injection this with this
    exact ⟨n, this ▸ h2, h3⟩

theorem name_brace {name : String} {p : PropText} (h : (name, p) ∈ table) : 125 ∉ chars name := by
  intro hc
  have := (name_ok h).2 125 hc
  omega

theorem lookup_of {name : String} {p : PropText} (h : (name, p) ∈ table) : lookupText (chars name) = some (91 :: (bodyText p ++ [93])) := by
  simp [lookupText, entry_of h, Unicode.text]

theorem hasProp_exists {name : String} {p : PropText} (h : (name, p) ∈ table) : ∃ c, HasProp name c := by
  cases p with
  | ranges up rs =>
    rw [hasProp_ranges h]
    obtain ⟨h1, h2⟩ := ranges_ok h
    obtain ⟨r, rs', rfl⟩ := List.exists_cons_of_ne_nil h1
    exact ⟨r.1, r, by simp, Nat.le_refl _, (h2 r (by simp)).1⟩
  | props ns =>
    rw [hasProp_props h]
    obtain ⟨h1, h2⟩ := refs_ok h
    obtain ⟨n, ns', rfl⟩ := List.exists_cons_of_ne_nil h1
    obtain ⟨up, rs, h3⟩ := h2 n (by simp)
    obtain ⟨h4, h5⟩ := ranges_ok h3
    obtain ⟨r, rs', rfl⟩ := List.exists_cons_of_ne_nil h4
    exact ⟨r.1, n, by simp, by rw [hasProp_ranges h3]; exact ⟨r, by simp, Nat.le_refl _, (h5 r (by simp)).1⟩⟩

theorem prop_le {name : String} {c : Nat} (h : HasProp name c) : c ≤ 0x10ffff := by
  induction h with
  | listed _ up rs c h1 h2 =>
    obtain ⟨r, hr, h3, h4⟩ := h2
    have := (ranges_ok h1).2 r hr
    omega
  | refers _ _ _ _ _ _ _ ih => exact ih

/-- The text of a property, if all its characters are characters of the environment. -/
theorem prop_whole {E : TokEnv} (hU : E.unicode = lookupText) (ic : Bool) {name : String} {p : PropText} (h : (name, p) ∈ table)
    (hm : ∀ c, HasProp name c → c ≤ E.max) : Brackets E ic .whole (bodyText p ++ [93]) (Closed E ic (HasProp name)) [] := by
  have ranges : ∀ {name : String} {up : Bool} {rs : List (Nat × Nat)}, (name, PropText.ranges up rs) ∈ table → (∀ c, HasProp name c → c ≤ E.max) →
      Brackets E ic .whole (bodyText (.ranges up rs) ++ [93]) (Closed E ic (HasProp name)) [] := by
    intro name up rs h hm
    rw [hasProp_ranges h] at hm ⊢
    obtain ⟨h1, h2⟩ := ranges_ok h
    exact ranges_whole ic up h1 h2 (fun r hr => hm r.2 ⟨r, hr, (h2 r hr).1, Nat.le_refl _⟩)
  cases p with
  | ranges up rs => exact ranges h hm
  | props ns =>
    obtain ⟨h1, h2⟩ := refs_ok h
    have := items_brackets (E := E) (ic := ic) (f := refText) (S := fun n => Closed E ic (HasProp n)) (b := true) h1
      (fun n _ => ⟨_, rfl⟩) (fun n hn rest he => by
        obtain ⟨up, rs, h3⟩ := h2 n hn
        have := Brackets.prop (E := E) (ic := ic) (chars n) (bodyText (.ranges up rs) ++ [93]) (Closed E ic (HasProp n)) rest (name_ok h3).1
          (name_brace h3) (by rw [hU]; exact lookup_of h3) (ranges h3 fun c hc => hm c (.refers _ _ _ _ h hn hc)) he.noDash
        exact this)
    rw [closed_any, ← hasProp_props h] at this
    refine .pos _ _ (by have := bodyText_head (p := .props ns) (w := []); rwa [List.append_nil] at this) this ?_
    obtain ⟨c, hc⟩ := hasProp_exists h
    exact ⟨c, .inl hc⟩

/-- The text of several properties, between brackets. -/
theorem refs_whole {E : TokEnv} (hU : E.unicode = lookupText) (ic : Bool) {ns : List String} (hne : ns ≠ []) (h : ∀ n ∈ ns, ∃ p, (n, p) ∈ table)
    (hm : ∀ n ∈ ns, ∀ c, HasProp n c → c ≤ E.max) : Brackets E ic .whole (ns.flatMap refText ++ [93]) (Closed E ic (Any HasProp ns)) [] := by
  have := items_brackets (E := E) (ic := ic) (f := refText) (S := fun n => Closed E ic (HasProp n)) (b := true) hne
    (fun n _ => ⟨_, rfl⟩) (fun n hn rest he => by
      obtain ⟨p, hp⟩ := h n hn
      exact Brackets.prop (E := E) (ic := ic) (chars n) (bodyText p ++ [93]) (Closed E ic (HasProp n)) rest (name_ok hp).1
        (name_brace hp) (by rw [hU]; exact lookup_of hp) (prop_whole hU ic hp (hm n hn)) he.noDash)
  rw [closed_any] at this
  refine .pos _ _ ?_ this ?_
  · obtain ⟨n, ns', rfl⟩ := List.exists_cons_of_ne_nil hne
    simp [refText]
  · obtain ⟨n, ns', rfl⟩ := List.exists_cons_of_ne_nil hne
    obtain ⟨p, hp⟩ := h n (by simp)
    obtain ⟨c, hc⟩ := hasProp_exists hp
    exact ⟨c, .inl ⟨n, by simp, hc⟩⟩

/-! ### What the tokeniser does with the texts -/

def tooBig : String := "Escape is too big for the state machine char type"

theorem escapeSeq_digits {E : TokEnv} (up : Bool) {n : Nat} (hn : n ≤ 0x10ffff) {rest : List Nat} (hr : ∀ d ∈ rest.head?, ¬ IsHexDigit d) :
    escapeSeq E (120 :: digits up n ++ rest) = if n > E.max then throw_ tooBig else .ok (.char n, rest) := by
  obtain ⟨h1, h2, h3⟩ := digits_spec up hn
  unfold escapeSeq
  rw [List.cons_append, if_neg (by simp)]
  simp only [shortcut, bind, Except.bind]
  repeat rw [if_neg (by decide)]
  simp only [escChar]
  repeat rw [if_neg (by decide)]
  rw [if_pos trivial, decodeHex_mod h2 h1 hr, h3, Nat.mod_eq_of_lt (by omega)]
  by_cases h : n > E.max
  · rw [if_pos h, if_pos h]
    rfl
  · rw [if_neg h, if_neg h]

theorem range_end {E : TokEnv} (ic up : Bool) {t : Token} {lo hi : Nat} (h1 : lo ≤ hi)
    (h2 : hi ≤ 0x10ffff) {d : Nat} {ds : List Nat} (hends : ∀ e ∈ (d :: ds).head?, ¬ IsHexDigit e) :
    charsetRange E ic false lo t (92 :: 120 :: (digits up hi ++ d :: ds)) =
      if hi > E.max then throw_ tooBig else .ok (addRange E ic (lo, hi) t, d :: ds) := by
  unfold charsetRange
  rw [if_neg (by simp)]
  dsimp only
  rw [if_pos rfl, ← List.cons_append, escapeSeq_digits up h2 hends]
  by_cases h : hi > E.max
  · rw [if_pos h, if_pos h]
    rfl
  · rw [if_neg h, if_neg h]
    simp only [bind, Except.bind, reduceCtorEq, if_false]
    rw [if_neg (by omega)]

theorem round_range {E : TokEnv} (ic up : Bool) {sub : List Nat → M Token} {k : Nat} {t : Token} {r : Nat × Nat} (h1 : r.1 ≤ r.2)
    (h2 : r.2 ≤ 0x10ffff) {d : Nat} {ds : List Nat} (hd : d = 92 ∨ d = 93) :
    charsetLoop E ic sub (k + 1) t (rangeText up r ++ d :: ds) =
      if r.2 > E.max then throw_ tooBig
      else if d ≠ 93 then charsetLoop E ic sub k (addRange E ic r t) (d :: ds) else .ok (addRange E ic r t, ds) := by
  have hends : ∀ e ∈ (d :: ds).head?, ¬ IsHexDigit e := by
    simp only [List.head?_cons, Option.mem_some_iff, forall_eq']
    unfold IsHexDigit
    omega
  obtain ⟨lo, hi⟩ := r
  dsimp only at h1 h2 ⊢
  unfold rangeText
  dsimp only
  split
  · rename_i heq
    subst heq
    rw [List.cons_append]
    conv => lhs; unfold charsetLoop
    rw [if_pos rfl, escapeSeq_digits up h2 hends]
    by_cases h : lo > E.max
    · rw [if_pos h, if_pos h]
      rfl
    · rw [if_neg h, if_neg h]
      dsimp only [bind, Except.bind]
      rw [if_neg (by omega), if_neg (by simp)]
  · rw [List.cons_append, List.cons_append, List.append_assoc, List.cons_append]
    conv => lhs; unfold charsetLoop
    rw [if_pos rfl, ← List.cons_append, escapeSeq_digits up (Nat.le_trans h1 h2) (by
      simp only [List.cons_append, List.head?_cons, Option.mem_some_iff, forall_eq']
      unfold IsHexDigit
      omega)]
    by_cases hlo : lo > E.max
    · rw [if_pos hlo, if_pos (by omega)]
      rfl
    · rw [if_neg hlo]
      have := range_end (E := E) ic up (t := t) h1 h2 hends
      simp only [List.cons_append]
      dsimp only [bind, Except.bind]
      rw [if_pos (by simp), this]
      by_cases hhi : hi > E.max
      · rw [if_pos hhi, if_pos hhi]
        rfl
      · rw [if_neg hhi, if_neg hhi]

theorem ranges_loop {E : TokEnv} (ic up : Bool) {sub : List Nat → M Token} : ∀ {rs : List (Nat × Nat)} {k : Nat} {t : Token}, rs ≠ [] →
    (∀ r ∈ rs, r.1 ≤ r.2 ∧ r.2 ≤ 0x10ffff) → rs.length ≤ k →
    charsetLoop E ic sub k t (rs.flatMap (rangeText up) ++ [93]) =
      if ∃ r ∈ rs, r.2 > E.max then throw_ tooBig else .ok (rs.foldl (fun t r => addRange E ic r t) t, [])
  | [], _, _, h, _, _ => absurd rfl h
  | [r], 0, t, _, h, hk => by simp at hk
  | [r], k + 1, t, _, h, hk => by
    obtain ⟨h1, h2⟩ := h r (by simp)
    simp only [List.flatMap_cons, List.flatMap_nil, List.append_nil]
    rw [round_range ic up h1 h2 (.inr rfl)]
    simp
  | r :: q :: rs, 0, t, _, h, hk => by simp at hk
  | r :: q :: rs, k + 1, t, _, h, hk => by
    obtain ⟨h1, h2⟩ := h r (by simp)
    obtain ⟨w, hw⟩ := rangeText_head up q
    rw [List.flatMap_cons, List.append_assoc]
    have e : (q :: rs).flatMap (rangeText up) ++ [93] = 92 :: (w ++ rs.flatMap (rangeText up) ++ [93]) := by
      rw [List.flatMap_cons, hw]
      simp
    rw [e, round_range ic up h1 h2 (.inl rfl), ← e, if_pos (show (92 : Nat) ≠ 93 by decide),
      ranges_loop ic up (rs := q :: rs) (k := k) (by simp) (fun r hr => h r (by simp [hr])) (by simp at hk ⊢; omega)]
    by_cases hr : r.2 > E.max
    · rw [if_pos hr, if_pos ⟨r, by simp, hr⟩]
    · rw [if_neg hr]
      simp only [List.foldl_cons]
      congr 1
      simp [hr]

theorem rangeText_len (up : Bool) (r : Nat × Nat) : 1 ≤ (rangeText up r).length := by
  obtain ⟨w, hw⟩ := rangeText_head up r
  simp [hw]

theorem flatMap_len {α : Type} {f : α → List Nat} : ∀ {xs : List α}, (∀ x ∈ xs, 1 ≤ (f x).length) → xs.length ≤ (xs.flatMap f).length
  | [], _ => by simp
  | x :: xs, h => by
    have h1 := h x (by simp)
    have h2 := flatMap_len (f := f) (xs := xs) (fun y hy => h y (by simp [hy]))
    simp only [List.flatMap_cons, List.length_append, List.length_cons]
    omega

/-- The charset of a property that lists characters: refused if one of them is too big. -/
theorem ranges_charset {E : TokEnv} (ic up : Bool) {rs : List (Nat × Nat)} (hne : rs ≠ []) (h : ∀ r ∈ rs, r.1 ≤ r.2 ∧ r.2 ≤ 0x10ffff) (d : Nat) :
    charset E ic (d + 1) (bodyText (.ranges up rs) ++ [93]) =
      if ∃ r ∈ rs, r.2 > E.max then throw_ tooBig
      else if rs.foldl (fun t r => addRange E ic r t) [] = [] then throw_ "Empty charset not allowed"
      else .ok (rs.foldl (fun t r => addRange E ic r t) [], []) := by
  have hb : ∃ w, bodyText (.ranges up rs) ++ [93] = 92 :: w := by
    obtain ⟨r, rs', rfl⟩ := List.exists_cons_of_ne_nil hne
    obtain ⟨w, hw⟩ := rangeText_head up r
    simp [bodyText, hw]
  obtain ⟨w, hw⟩ := hb
  unfold charset
  rw [hw]
  simp only [bind, Except.bind]
  rw [if_neg (show ¬ (92 : Nat) = 94 by decide)]
  try dsimp only
  simp only [show ¬ (92 : Nat) = 94 by decide, if_false]
  rw [← hw]
  have hl := flatMap_len (f := rangeText up) (xs := rs) fun r _ => rangeText_len up r
  rw [show bodyText (.ranges up rs) = rs.flatMap (rangeText up) from rfl, ranges_loop ic up hne h (by simp only [List.length_append]; omega)]
  by_cases hbig : ∃ r ∈ rs, r.2 > E.max
  · rw [if_pos hbig, if_pos hbig]
    rfl
  · rw [if_neg hbig, if_neg hbig]

theorem toBrace_name : ∀ {name rest : List Nat}, 125 ∉ name → toBrace (name ++ 125 :: rest) = (name, 125 :: rest)
  | [], rest, _ => by simp [toBrace]
  | c :: cs, rest, h => by
    simp only [List.mem_cons, not_or] at h
    rw [List.cons_append, toBrace, if_neg (Ne.symm h.1), toBrace_name h.2]

theorem unicodeEscape_ref {E : TokEnv} {name rest : List Nat} (hne : name ≠ []) (hb : 125 ∉ name) :
    unicodeEscape E (123 :: name ++ 125 :: rest) = match E.unicode name with
      | some str => .ok (str, 125 :: rest)
      | none => throw_ "Syntax error following \\p{" := by
  obtain ⟨c, cs, rfl⟩ := List.exists_cons_of_ne_nil hne
  simp only [List.mem_cons, not_or] at hb
  simp only [unicodeEscape, List.cons_append]
  rw [if_neg (by simp), toBrace_name hb.2]
  rfl

theorem escapeSeq_ref {E : TokEnv} {name rest : List Nat} (hne : name ≠ []) (hb : 125 ∉ name) :
    escapeSeq E (112 :: 123 :: name ++ 125 :: rest) = match E.unicode name with
      | some str => .ok (.text str, rest)
      | none => throw_ "Syntax error following \\p{" := by
  unfold escapeSeq
  rw [List.cons_append, if_neg (by simp)]
  simp only [shortcut, bind, Except.bind]
  repeat rw [if_neg (by decide)]
  rw [if_pos trivial, unicodeEscape_ref hne hb]
  cases E.unicode name with
  | none => rfl
  | some str => rfl

theorem round_ref {E : TokEnv} (ic : Bool) {sub : List Nat → M Token} {k : Nat} {t : Token} {n : String} (hne : chars n ≠ []) (hb : 125 ∉ chars n)
    {str : List Nat} (hs : E.unicode (chars n) = some str) {d : Nat} {ds : List Nat} (hd : d = 92 ∨ d = 93) :
    charsetLoop E ic sub (k + 1) t (refText n ++ d :: ds) =
      match sub str.tail with
      | .error e => .error e
      | .ok temp => if d ≠ 93 then charsetLoop E ic sub k (t.insertToken temp) (d :: ds) else .ok (t.insertToken temp, ds) := by
  have e : refText n ++ d :: ds = 92 :: (112 :: 123 :: chars n ++ 125 :: d :: ds) := by simp [refText]
  rw [e]
  conv => lhs; unfold charsetLoop
  rw [if_pos rfl, escapeSeq_ref hne hb, hs]
  simp only [bind, Except.bind]
  cases sub str.tail with
  | error e => rfl
  | ok temp =>
    dsimp only
    rw [if_neg (by omega)]
    simp

/-- An exception, or a result. -/
def Fine {α : Type} (x : M α) : Prop := ∀ e, x = .error e → ∃ what, e = .throw what

theorem refs_loop {E : TokEnv} (ic : Bool) {sub : List Nat → M Token} : ∀ {ns : List String} {k : Nat} {t : Token}, ns ≠ [] →
    (∀ n ∈ ns, chars n ≠ [] ∧ 125 ∉ chars n ∧ ∃ str, E.unicode (chars n) = some str ∧ Fine (sub str.tail)) → ns.length ≤ k →
    Fine (charsetLoop E ic sub k t (ns.flatMap refText ++ [93]))
  | [], _, _, h, _, _ => absurd rfl h
  | [n], 0, t, _, h, hk => by simp at hk
  | [n], k + 1, t, _, h, hk => by
    obtain ⟨h1, h2, str, h3, h4⟩ := h n (by simp)
    simp only [List.flatMap_cons, List.flatMap_nil, List.append_nil]
    rw [round_ref ic h1 h2 h3 (.inr rfl)]
    split
    · rename_i e he
      intro e' h'
      cases h'
      exact h4 _ he
    · rw [if_neg (by simp)]
      intro e' h'
      cases h'
  | n :: m :: ns, 0, t, _, h, hk => by simp at hk
  | n :: m :: ns, k + 1, t, _, h, hk => by
    obtain ⟨h1, h2, str, h3, h4⟩ := h n (by simp)
    rw [List.flatMap_cons, List.append_assoc]
    have e : (m :: ns).flatMap refText ++ [93] = 92 :: (112 :: 123 :: chars m ++ [125] ++ ns.flatMap refText ++ [93]) := by
      rw [List.flatMap_cons]
      simp [refText]
    rw [e, round_ref ic h1 h2 h3 (.inl rfl), ← e]
    split
    · rename_i e he
      intro e' h'
      cases h'
      exact h4 _ he
    · rw [if_pos (by decide)]
      exact refs_loop ic (by simp) (fun n hn => h n (by simp [hn])) (by simp at hk ⊢; omega)

theorem ranges_fine {E : TokEnv} (ic up : Bool) {rs : List (Nat × Nat)} (hne : rs ≠ []) (h : ∀ r ∈ rs, r.1 ≤ r.2 ∧ r.2 ≤ 0x10ffff) (d : Nat) :
    Fine (charset E ic (d + 1) (bodyText (.ranges up rs) ++ [93])) := by
  rw [ranges_charset ic up hne h d]
  intro e he
  split at he
  · cases he; exact ⟨_, rfl⟩
  · split at he
    · cases he; exact ⟨_, rfl⟩
    · cases he

theorem prop_fine {E : TokEnv} (hU : E.unicode = lookupText) (ic : Bool) {name : String} {p : PropText} (h : (name, p) ∈ table) (d : Nat) :
    Fine (charset E ic (d + 2) (bodyText p ++ [93])) := by
  cases p with
  | ranges up rs =>
    obtain ⟨h1, h2⟩ := ranges_ok h
    exact ranges_fine ic up h1 h2 _
  | props ns =>
    obtain ⟨h1, h2⟩ := refs_ok h
    have hb : ∃ w, bodyText (.props ns) ++ [93] = 92 :: w := by
      obtain ⟨r, rs', rfl⟩ := List.exists_cons_of_ne_nil h1
      simp [bodyText, refText]
    obtain ⟨w, hw⟩ := hb
    unfold charset
    rw [hw]
    simp only [bind, Except.bind]
    rw [if_neg (show ¬ (92 : Nat) = 94 by decide)]
    try dsimp only
    simp only [show ¬ (92 : Nat) = 94 by decide, if_false]
    rw [← hw]
    have hl := flatMap_len (f := refText) (xs := ns) fun n _ => by simp [refText]
    have := refs_loop (E := E) ic (sub := fun str => match charset E ic (d + 1) str with
        | .error e => .error e
        | .ok v => .ok v.1) (ns := ns) (k := (bodyText (.props ns) ++ [93]).length + 1) (t := []) h1 (fun n hn => by
        obtain ⟨up, rs, h3⟩ := h2 n hn
        obtain ⟨h4, h5⟩ := ranges_ok h3
        refine ⟨(name_ok h3).1, name_brace h3, _, by rw [hU]; exact lookup_of h3, ?_⟩
        have := ranges_fine (E := E) ic up h4 h5 d
        rw [List.tail_cons]
        intro e he
        split at he
        · rename_i e' h'
          cases he
          exact this _ h'
        · cases he) (by simp only [bodyText, List.length_append, List.length_cons, List.length_nil]; omega)
    intro e he
    split at he
    · rename_i e' h'
      cases he
      refine this _ (Eq.trans ?_ h')
      congr 1
      funext str
      cases charset E ic (d + 1) str <;> rfl
    · split at he
      · cases he; exact ⟨_, rfl⟩
      · cases he

theorem text_le {name : String} {p : PropText} (h : (name, p) ∈ table) : ∀ c ∈ (91 :: (bodyText p ++ [93])), c ≤ 127 := by
  have hex : ∀ (up : Bool) (n : Nat), n ≤ 0x10ffff → ∀ c ∈ digits up n, c ≤ 127 := by
    intro up n hn c hc
    have := (digits_spec up hn).1 c hc
    unfold IsHexDigit at this
    omega
  intro c hc
  simp only [List.mem_cons, List.mem_append, List.not_mem_nil, or_false] at hc
  rcases hc with rfl | hc | rfl
  · decide
  · cases p with
    | ranges up rs =>
      simp only [bodyText, List.mem_flatMap] at hc
      obtain ⟨r, hr, hc⟩ := hc
      obtain ⟨h1, h2⟩ := (ranges_ok h).2 r hr
      unfold rangeText at hc
      split at hc <;> simp only [List.cons_append, List.mem_cons, List.mem_append] at hc
      · rcases hc with rfl | rfl | hc
        · decide
        · decide
        · exact hex _ _ (by omega) _ hc
      · rcases hc with rfl | rfl | hc | rfl | rfl | rfl | hc
        · decide
        · decide
        · exact hex _ _ (by omega) _ hc
        · decide
        · decide
        · decide
        · exact hex _ _ (by omega) _ hc
    | props ns =>
      simp only [bodyText, List.mem_flatMap] at hc
      obtain ⟨n, hn, hc⟩ := hc
      obtain ⟨up, rs, h3⟩ := (refs_ok h).2 n hn
      simp only [refText, List.cons_append, List.mem_cons, List.mem_append, List.not_mem_nil, or_false] at hc
      rcases hc with rfl | rfl | rfl | hc | rfl
      · decide
      · decide
      · decide
      · have := (name_ok h3).2 c hc
        omega
      · decide
  · decide

theorem lookup_some {name str : List Nat} (h : lookupText name = some str) :
    ∃ n p, chars n = name ∧ (n, p) ∈ table ∧ str = 91 :: (bodyText p ++ [93]) := by
  unfold lookupText at h
  cases he : entry name with
  | none => simp [he] at h
  | some p =>
    rw [he] at h
    simp only [Option.map_some, Option.some.injEq] at h
    obtain ⟨n, h1, h2⟩ := entry_some he
    exact ⟨n, p, h1, h2, by rw [← h]; simp [Unicode.text]⟩

/-- The tables satisfy what is assumed about tables. -/
theorem tables_ok {E : TokEnv} (hU : E.unicode = lookupText) (hb : 127 ≤ E.max) :
    (∀ name str, E.unicode name = some str → ∀ c ∈ str, c ≤ E.max) ∧
    (∀ icase d name str, charsetDepth ≤ d + 2 → d ≤ charsetDepth → E.unicode name = some str → charset E icase d str.tail ≠ .error .fuel) := by
  constructor
  · intro name str h c hc
    rw [hU] at h
    obtain ⟨n, p, _, h2, rfl⟩ := lookup_some h
    have := text_le h2 c hc
    omega
  · intro ic d name str hd _ h he
    rw [hU] at h
    obtain ⟨n, p, _, h2, rfl⟩ := lookup_some h
    obtain ⟨d', rfl⟩ : ∃ d', d = d' + 2 := ⟨d - 2, by simp only [charsetDepth] at hd; omega⟩
    obtain ⟨_, h3⟩ := prop_fine hU ic h2 d' _ he
    cases h3

/-! ### Characters beyond the end -/

theorem refs_loop_ok {E : TokEnv} (ic : Bool) {sub : List Nat → M Token} : ∀ {ns : List String} {k : Nat} {t : Token} {x : Token × List Nat}, ns ≠ [] →
    (∀ n ∈ ns, chars n ≠ [] ∧ 125 ∉ chars n ∧ ∃ str, E.unicode (chars n) = some str) →
    charsetLoop E ic sub k t (ns.flatMap refText ++ [93]) = .ok x →
    ∀ n ∈ ns, ∃ str v, E.unicode (chars n) = some str ∧ sub str.tail = .ok v
  | [], _, _, _, h, _, _ => absurd rfl h
  | ns, 0, t, x, _, h, hx => by unfold charsetLoop at hx; cases hx
  | [n], k + 1, t, x, _, h, hx => by
    obtain ⟨h1, h2, str, h3⟩ := h n (by simp)
    simp only [List.flatMap_cons, List.flatMap_nil, List.append_nil] at hx
    rw [round_ref ic h1 h2 h3 (.inr rfl)] at hx
    intro m hm
    rw [List.mem_singleton] at hm
    subst hm
    split at hx
    · cases hx
    · rename_i v hv
      exact ⟨str, v, h3, hv⟩
  | n :: m :: ns, k + 1, t, x, _, h, hx => by
    obtain ⟨h1, h2, str, h3⟩ := h n (by simp)
    rw [List.flatMap_cons, List.append_assoc] at hx
    have e : (m :: ns).flatMap refText ++ [93] = 92 :: (112 :: 123 :: chars m ++ [125] ++ ns.flatMap refText ++ [93]) := by
      rw [List.flatMap_cons]
      simp [refText]
    rw [e, round_ref ic h1 h2 h3 (.inl rfl), ← e] at hx
    split at hx
    · cases hx
    · rename_i v hv
      rw [if_pos (by decide)] at hx
      intro n' hn
      simp only [List.mem_cons] at hn
      rcases hn with rfl | hn
      · exact ⟨str, v, h3, hv⟩
      · exact refs_loop_ok ic (by simp) (fun n hn => h n (by simp [hn])) hx n' (by simpa using hn)

theorem prop_ok {E : TokEnv} (hU : E.unicode = lookupText) (ic : Bool) {name : String} {p : PropText} (h : (name, p) ∈ table) (d : Nat)
    {x : Token × List Nat} (hx : charset E ic (d + 2) (bodyText p ++ [93]) = .ok x) : ∀ c, HasProp name c → c ≤ E.max := by
  have ranges : ∀ {name : String} {up : Bool} {rs : List (Nat × Nat)} {d : Nat} {x : Token × List Nat}, (name, PropText.ranges up rs) ∈ table →
      charset E ic (d + 1) (bodyText (.ranges up rs) ++ [93]) = .ok x → ∀ c, HasProp name c → c ≤ E.max := by
    intro name up rs d x h hx c hc
    obtain ⟨h1, h2⟩ := ranges_ok h
    rw [ranges_charset ic up h1 h2 d] at hx
    rw [hasProp_ranges h] at hc
    obtain ⟨r, hr, h3, h4⟩ := hc
    split at hx
    · cases hx
    · rename_i hn
      refine Nat.le_of_not_lt fun hlt => hn ⟨r, hr, ?_⟩
      omega
  cases p with
  | ranges up rs => exact ranges h hx
  | props ns =>
    obtain ⟨h1, h2⟩ := refs_ok h
    have hb : ∃ w, bodyText (.props ns) ++ [93] = 92 :: w := by
      obtain ⟨r, rs', rfl⟩ := List.exists_cons_of_ne_nil h1
      simp [bodyText, refText]
    obtain ⟨w, hw⟩ := hb
    unfold charset at hx
    rw [hw] at hx
    simp only [bind, Except.bind, show ¬ (92 : Nat) = 94 by decide, if_false] at hx
    rw [← hw] at hx
    split at hx
    · cases hx
    · rename_i v hv
      intro c hc
      rw [hasProp_props h] at hc
      obtain ⟨n, hn, hc⟩ := hc
      obtain ⟨up, rs, h3⟩ := h2 n hn
      obtain ⟨str, v, h4, h5⟩ := refs_loop_ok ic h1 (fun n hn => by
        obtain ⟨up, rs, h3⟩ := h2 n hn
        exact ⟨(name_ok h3).1, name_brace h3, _, by rw [hU]; exact lookup_of h3⟩) hv n hn
      rw [hU, lookup_of h3] at h4
      cases h4
      rw [List.tail_cons] at h5
      split at h5
      · cases h5
      · rename_i y hy
        exact ranges h3 hy c hc

/-- A property with characters beyond the end is refused. -/
theorem escapeTok_refused {E : TokEnv} (hU : E.unicode = lookupText) (ic : Bool) {name : String} {c : Nat} (h : HasProp name c) (hc : E.max < c)
    (rest : List Nat) : ∃ what, escapeTok E ic (112 :: 123 :: chars name ++ 125 :: rest) = throw_ what := by
  obtain ⟨p, hp⟩ : ∃ p, (name, p) ∈ table := by
    cases h with
    | listed _ _ _ _ h => exact ⟨_, h⟩
    | refers _ _ _ _ h => exact ⟨_, h⟩
  unfold escapeTok
  rw [escapeSeq_ref (name_ok hp).1 (name_brace hp), hU, lookup_of hp]
  simp only [bind, Except.bind]
  cases hx : charset E ic charsetDepth (91 :: (bodyText p ++ [93])).tail with
  | ok x =>
    have := prop_ok hU ic hp 6 hx c h
    omega
  | error e =>
    obtain ⟨what, rfl⟩ := prop_fine hU ic hp 6 e hx
    exact ⟨what, rfl⟩

/-- An unknown name is refused. -/
theorem escapeTok_unknown {E : TokEnv} (ic : Bool) {name : List Nat} (hne : name ≠ []) (hb : 125 ∉ name) (h : E.unicode name = none) (rest : List Nat) :
    ∃ what, escapeTok E ic (112 :: 123 :: name ++ 125 :: rest) = throw_ what := by
  unfold escapeTok
  rw [escapeSeq_ref hne hb, h]
  exact ⟨_, rfl⟩

end Lexertl.Uni
