import Verif.Spec.Utf

/- Proofs about the UTF iterators. -/
namespace Lexertl.Utf
open Lexertl Spec

/-! ### Bits -/

theorem and_mask (x k : Nat) : x &&& (2 ^ k - 1) = x % 2 ^ k := Nat.and_two_pow_sub_one_eq_mod x k

theorem and_3f (x : Nat) : x &&& 0x3f = x % 64 := and_mask x 6
theorem and_ff (x : Nat) : x &&& 0xff = x % 256 := and_mask x 8
theorem and_3ff (x : Nat) : x &&& 0x3ff = x % 1024 := and_mask x 10
theorem and_7ff (x : Nat) : x &&& 0x7ff = x % 2048 := and_mask x 11
theorem and_fff (x : Nat) : x &&& 0xfff = x % 4096 := and_mask x 12
theorem and_ffff (x : Nat) : x &&& 0xffff = x % 65536 := and_mask x 16
theorem and_3ffff (x : Nat) : x &&& 0x3ffff = x % 262144 := and_mask x 18
theorem and_1fffff (x : Nat) : x &&& 0x1fffff = x % 2097152 := and_mask x 21

theorem or_add (a k b : Nat) (h : b < 2 ^ k) : a * 2 ^ k ||| b = a * 2 ^ k + b := by
  rw [← Nat.shiftLeft_eq, Nat.shiftLeft_add_eq_or_of_lt h]

theorem or_add' (a k b : Nat) (h : b < 2 ^ k) : b ||| a * 2 ^ k = a * 2 ^ k + b := by
  rw [Nat.or_comm, or_add a k b h]

theorem cont_iff : ∀ b < 256, (b &&& 0xc0 = 0x80 ↔ 128 ≤ b ∧ b < 192) := by decide +kernel
theorem two_iff : ∀ b < 256, (b &&& 0xe0 = 0xc0 ↔ 192 ≤ b ∧ b < 224) := by decide +kernel
theorem three_iff : ∀ b < 256, (b &&& 0xf0 = 0xe0 ↔ 224 ≤ b ∧ b < 240) := by decide +kernel
theorem four_iff : ∀ b < 256, (b &&& 0xf8 = 0xf0 ↔ 240 ≤ b ∧ b < 248) := by decide +kernel

theorem utf8Len_eq {b : Nat} (h : b < 256) : utf8Len b =
    if b < 128 then 1 else if 192 ≤ b ∧ b < 224 then 2 else if 224 ≤ b ∧ b < 240 then 3
    else if 240 ≤ b ∧ b < 248 then 4 else 127 := by
  unfold utf8Len
  simp only [two_iff b h, three_iff b h, four_iff b h]

/-! ### The encoders -/

theorem utf8Bytes_eq {c : Nat} (h : c < 0x200000) : utf8Bytes c = utf8 c := by
  have o1 : ∀ x, x < 64 → x ||| 0x80 = 0x80 + x := fun x hx => by
    have := or_add' 2 6 x hx
    omega
  have o2 : ∀ x, x < 32 → x ||| 0xc0 = 0xc0 + x := fun x hx => by
    have := or_add' 6 5 x hx
    omega
  have o3 : ∀ x, x < 16 → x ||| 0xe0 = 0xe0 + x := fun x hx => by
    have := or_add' 14 4 x hx
    omega
  have o4 : ∀ x, x < 8 → x ||| 0xf0 = 0xf0 + x := fun x hx => by
    have := or_add' 30 3 x hx
    omega
  unfold utf8Bytes utf8
  simp only [Nat.shiftRight_eq_div_pow, and_3f]
  split
  · congr 1; omega
  split
  · rw [o1 _ (by omega), o2 _ (by omega)]
    congr 1 <;> try congr 1
    all_goals omega
  split
  · rw [o1 _ (by omega), o1 _ (by omega), o3 _ (by omega)]
    congr 1
    · omega
    congr 1
    · omega
    congr 1
    omega
  · rw [o1 _ (by omega), o1 _ (by omega), o1 _ (by omega), o4 _ (by omega)]
    congr 1
    · omega
    congr 1
    · omega
    congr 1
    · omega
    congr 1
    omega

theorem utf16Units_eq {c : Nat} (h : c ≤ 0x10ffff) : utf16Units c = utf16 c := by
  unfold utf16Units utf16
  simp only [Nat.shiftRight_eq_div_pow, and_3ff]
  by_cases hc : c > 0xffff
  · rw [if_pos hc, if_neg (by omega)]
    have h1 : ((c - 0x10000) / 2 ^ 10 + 0xd800) % 65536 = 0xd800 + (c - 0x10000) / 1024 := by omega
    have h2 : (c % 1024 + 0xdc00) % 65536 = 0xdc00 + (c - 0x10000) % 1024 := by omega
    rw [h1, h2]
  · rw [if_neg hc, if_pos (by omega), Nat.mod_eq_of_lt (by omega)]

theorem utf8_cases (c : Nat) : (c < 0x80 ∧ utf8 c = [c]) ∨ (0x80 ≤ c ∧ c < 0x800 ∧ utf8 c = [0xc0 + c / 64, 0x80 + c % 64]) ∨
    (0x800 ≤ c ∧ c < 0x10000 ∧ utf8 c = [0xe0 + c / 4096, 0x80 + c / 64 % 64, 0x80 + c % 64]) ∨
    (0x10000 ≤ c ∧ utf8 c = [0xf0 + c / 262144, 0x80 + c / 4096 % 64, 0x80 + c / 64 % 64, 0x80 + c % 64]) := by
  unfold utf8
  by_cases h1 : c < 0x80
  · exact .inl ⟨h1, if_pos h1⟩
  by_cases h2 : c < 0x800
  · exact .inr (.inl ⟨by omega, h2, by rw [if_neg h1, if_pos h2]⟩)
  by_cases h3 : c < 0x10000
  · exact .inr (.inr (.inl ⟨by omega, h3, by rw [if_neg h1, if_neg h2, if_pos h3]⟩))
  · exact .inr (.inr (.inr ⟨by omega, by rw [if_neg h1, if_neg h2, if_neg h3]⟩))

theorem utf16_cases (c : Nat) : (c < 0x10000 ∧ utf16 c = [c]) ∨
    (0x10000 ≤ c ∧ utf16 c = [0xd800 + (c - 0x10000) / 1024, 0xdc00 + (c - 0x10000) % 1024]) := by
  unfold utf16
  by_cases h1 : c < 0x10000
  · exact .inl ⟨h1, if_pos h1⟩
  · exact .inr ⟨by omega, if_neg h1⟩

theorem utf8_ne (c : Nat) : utf8 c ≠ [] := by
  rcases utf8_cases c with h | h | h | h <;> simp [h]
theorem utf16_ne (c : Nat) : utf16 c ≠ [] := by unfold utf16; repeat' split <;> simp

/-! ### The decoders -/

theorem get_at (pre : List Nat) (b : Nat) (post : List Nat) : (pre ++ b :: post)[pre.length]? = some b := by simp

theorem get_at' (pre : List Nat) (l : List Nat) (k : Nat) : (pre ++ l)[pre.length + k]? = l[k]? := by
  rw [List.getElem?_append_right (by omega)]
  congr 1; omega

theorem utf8Cont_ok {inp : List Nat} {e b : Nat} (h : inp[e]? = some b) (h1 : 128 ≤ b) (h2 : b < 192) : utf8Cont inp e = .ok b := by
  have he := (List.getElem?_eq_some_iff.1 h).1
  unfold utf8Cont
  rw [if_neg (by omega), h]
  dsimp only
  rw [if_neg]
  simp only [ne_eq, Decidable.not_not]
  exact (cont_iff b (by omega)).2 ⟨h1, h2⟩

/-- A decoder reads what `enc` writes. -/
structure Decodes (next : List Nat → UtfIn → UtfIn × M Unit) (enc : Nat → List Nat) (P : Nat → Prop) : Prop where
  ne : ∀ c, P c → enc c ≠ []
  step : ∀ pre c post (s : UtfIn), P c → s.it = pre.length →
    next (pre ++ (enc c ++ post)) s = (⟨pre.length, pre.length + (enc c).length, c⟩, .ok ())
  stop : ∀ inp (s : UtfIn), s.it = inp.length → next inp s = (s, .ok ())

theorem utf8_decodes : Decodes utf8Next utf8 (· < 0x200000) where
  ne c _ := utf8_ne c
  stop inp s h := by unfold utf8Next; rw [if_pos h]
  step pre c post s hc hs := by
    unfold utf8Next
    have hlt : s.it ≠ (pre ++ (utf8 c ++ post)).length := by
      have := List.length_pos_iff.2 (utf8_ne c)
      simp only [List.length_append]
      omega
    rw [if_neg hlt, hs]
    rcases utf8_cases c with ⟨h, e8⟩ | ⟨h1, h2, e8⟩ | ⟨h1, h2, e8⟩ | ⟨h1, e8⟩
    · rw [e8, List.singleton_append, get_at]
      dsimp only
      rw [utf8Len_eq (by omega), if_pos h]
      rw [and_ff, Nat.mod_eq_of_lt (by omega)]
      rfl
    · rw [e8, List.cons_append, get_at]
      dsimp only
      rw [utf8Len_eq (by omega), if_neg (by omega), if_pos (by omega)]
      dsimp only [utf8Next2]
      rw [utf8Cont_ok (b := 0x80 + c % 64) (by rw [get_at']; rfl) (by omega) (by omega)]
      dsimp only
      have e : ((192 + c / 64) &&& 255) <<< 6 &&& 2047 ||| 128 + c % 64 &&& 63 = c := by
        rw [and_ff, and_7ff, and_3f, Nat.shiftLeft_eq, Nat.mod_eq_of_lt (a := 192 + c / 64) (by omega)]
        have h1 : (192 + c / 64) * 2 ^ 6 % 2048 = c / 64 * 2 ^ 6 := by omega
        rw [h1, or_add _ _ _ (by omega)]
        omega
      rw [e]
      rfl
    · rw [e8, List.cons_append, get_at]
      dsimp only
      rw [utf8Len_eq (by omega), if_neg (by omega), if_neg (by omega), if_pos (by omega)]
      dsimp only [utf8Next3]
      rw [utf8Cont_ok (b := 0x80 + c / 64 % 64) (by rw [get_at']; rfl) (by omega) (by omega)]
      dsimp only
      rw [utf8Cont_ok (b := 0x80 + c % 64) (by rw [get_at']; rfl) (by omega) (by omega)]
      dsimp only
      have e : ((224 + c / 4096 &&& 255) <<< 12 &&& 65535 ||| (128 + c / 64 % 64 &&& 255) <<< 6 &&& 4095) ||| 128 + c % 64 &&& 63 = c := by
        rw [and_ff, and_ff, and_ffff, and_fff, and_3f, Nat.shiftLeft_eq, Nat.shiftLeft_eq,
          Nat.mod_eq_of_lt (a := 224 + c / 4096) (by omega), Nat.mod_eq_of_lt (a := 128 + c / 64 % 64) (by omega)]
        have h1 : (224 + c / 4096) * 2 ^ 12 % 65536 = c / 4096 * 2 ^ 12 := by omega
        have h2 : (128 + c / 64 % 64) * 2 ^ 6 % 4096 = c / 64 % 64 * 2 ^ 6 := by omega
        rw [h1, h2, or_add _ _ _ (by omega)]
        have h3 : c / 4096 * 2 ^ 12 + c / 64 % 64 * 2 ^ 6 = c / 64 * 2 ^ 6 := by omega
        rw [h3, or_add _ _ _ (by omega)]
        omega
      rw [e]
      rfl
    · rw [e8, List.cons_append, get_at]
      dsimp only
      rw [utf8Len_eq (by omega), if_neg (by omega), if_neg (by omega), if_neg (by omega), if_pos (by omega)]
      dsimp only [utf8Next4]
      rw [utf8Cont_ok (b := 0x80 + c / 4096 % 64) (by rw [get_at']; rfl) (by omega) (by omega)]
      dsimp only
      rw [utf8Cont_ok (b := 0x80 + c / 64 % 64) (by rw [get_at']; rfl) (by omega) (by omega)]
      dsimp only
      rw [utf8Cont_ok (b := 0x80 + c % 64) (by rw [get_at']; rfl) (by omega) (by omega)]
      dsimp only
      have e : (((240 + c / 262144 &&& 255) <<< 18 &&& 2097151 ||| (128 + c / 4096 % 64 &&& 255) <<< 12 &&& 262143) |||
          (128 + c / 64 % 64 &&& 255) <<< 6 &&& 4095) ||| 128 + c % 64 &&& 63 = c := by
        rw [and_ff, and_ff, and_ff, and_1fffff, and_3ffff, and_fff, and_3f, Nat.shiftLeft_eq, Nat.shiftLeft_eq, Nat.shiftLeft_eq,
          Nat.mod_eq_of_lt (a := 240 + c / 262144) (by omega), Nat.mod_eq_of_lt (a := 128 + c / 4096 % 64) (by omega),
          Nat.mod_eq_of_lt (a := 128 + c / 64 % 64) (by omega)]
        have h1 : (240 + c / 262144) * 2 ^ 18 % 2097152 = c / 262144 * 2 ^ 18 := by omega
        have h2 : (128 + c / 4096 % 64) * 2 ^ 12 % 262144 = c / 4096 % 64 * 2 ^ 12 := by
          have : c / 4096 % 64 < 64 := by omega
          generalize c / 4096 % 64 = x at *
          clear h1
          omega
        have h3 : (128 + c / 64 % 64) * 2 ^ 6 % 4096 = c / 64 % 64 * 2 ^ 6 := by omega
        rw [h1, h2, h3, or_add _ _ _ (by omega)]
        have h4 : c / 262144 * 2 ^ 18 + c / 4096 % 64 * 2 ^ 12 = c / 4096 * 2 ^ 12 := by omega
        rw [h4, or_add _ _ _ (by omega)]
        have h5 : c / 4096 * 2 ^ 12 + c / 64 % 64 * 2 ^ 6 = c / 64 * 2 ^ 6 := by
          have : c / 4096 = c / 64 / 64 := by omega
          rw [this]
          clear h1 h2 h3 h4 this
          generalize c / 64 = x
          omega
        rw [h5, or_add _ _ _ (by omega)]
        omega
      rw [e]
      rfl

theorem utf16_decodes : Decodes utf16Next utf16 Scalar where
  ne c _ := utf16_ne c
  stop inp s h := by unfold utf16Next; rw [if_pos h]
  step pre c post s hc hs := by
    unfold utf16Next
    have hlt : s.it ≠ (pre ++ (utf16 c ++ post)).length := by
      have := List.length_pos_iff.2 (utf16_ne c)
      simp only [List.length_append]
      omega
    have hc' : c < 0xd800 ∨ (0xdfff < c ∧ c ≤ 0x10ffff) := hc
    rw [if_neg hlt, hs]
    rcases utf16_cases c with ⟨h, e8⟩ | ⟨h, e8⟩
    · rw [e8, List.singleton_append, get_at]
      dsimp only
      rw [if_pos (by omega)]
      rfl
    · rw [e8, List.cons_append, get_at]
      dsimp only
      rw [if_neg (by omega), if_neg (by omega), if_neg (by simp)]
      rw [get_at']
      simp only [List.cons_append, List.getElem?_cons_succ, List.getElem?_cons_zero]
      rw [if_neg (by omega)]
      have e : ((55296 + (c - 65536) / 1024 - 55296) <<< 10 ||| 56320 + (c - 65536) % 1024 - 56320) + 65536 = c := by
        rw [Nat.shiftLeft_eq, or_add _ _ _ (by omega)]
        omega
      rw [e]
      rfl

/-- The decoder gives back the code points. -/
theorem Decodes.collect {next : List Nat → UtfIn → UtfIn × M Unit} {enc : Nat → List Nat} {P : Nat → Prop} (D : Decodes next enc P) :
    ∀ (cs : List Nat) (pre : List Nat) (c n : Nat), P c → (∀ d ∈ cs, P d) → cs.length + 1 < n →
      UtfIn.collect (pre ++ (enc c ++ cs.flatMap enc)) (next (pre ++ (enc c ++ cs.flatMap enc))) n ⟨pre.length, pre.length + (enc c).length, c⟩ =
        .ok (c :: cs)
  | cs, pre, c, 0, _, _, h => by omega
  | cs, pre, c, 1, _, _, h => by omega
  | [], pre, c, n + 2, hc, _, _ => by
    have hp := List.length_pos_iff.2 (D.ne c hc)
    unfold UtfIn.collect
    rw [if_neg (by simp only [List.length_append]; omega)]
    unfold UtfIn.inc
    dsimp only
    rw [D.stop _ _ (by simp)]
    unfold UtfIn.collect
    rw [if_pos (by simp)]
    rfl
  | d :: cs, pre, c, n + 2, hc, hcs, hn => by
    have hp := List.length_pos_iff.2 (D.ne c hc)
    have hstep := D.step (pre ++ enc c) d (cs.flatMap enc) ⟨pre.length + (enc c).length, pre.length + (enc c).length, c⟩ (hcs d (by simp)) (by simp)
    have ih := Decodes.collect D cs (pre ++ enc c) d (n + 1) (hcs d (by simp)) (fun x hx => hcs x (by simp [hx])) (by simp at hn ⊢; omega)
    unfold UtfIn.collect
    rw [if_neg (by simp only [List.length_append]; omega)]
    unfold UtfIn.inc
    dsimp only
    rw [List.flatMap_cons, ← List.append_assoc pre, hstep]
    simp only [List.length_append] at ih ⊢
    rw [ih]
    rfl

theorem flatMap_len {enc : Nat → List Nat} : ∀ (cs : List Nat), (∀ c ∈ cs, enc c ≠ []) → cs.length ≤ (cs.flatMap enc).length
  | [], _ => by simp
  | c :: cs, h => by
    have h1 := List.length_pos_iff.2 (h c (by simp))
    have h2 := flatMap_len cs fun d hd => h d (by simp [hd])
    simp only [List.length_cons, List.flatMap_cons, List.length_append]
    omega

theorem Decodes.all {next : List Nat → UtfIn → UtfIn × M Unit} {enc : Nat → List Nat} {P : Nat → Prop} (D : Decodes next enc P)
    (cs : List Nat) (h : ∀ c ∈ cs, P c) : UtfIn.all (cs.flatMap enc) (next (cs.flatMap enc)) = .ok cs := by
  unfold UtfIn.all UtfIn.new
  cases cs with
  | nil =>
    rw [D.stop _ _ rfl]
    rfl
  | cons c cs =>
    have hstep := D.step [] c (cs.flatMap enc) ⟨0, 0, 0⟩ (h c (by simp)) rfl
    simp only [List.nil_append, List.length_nil, Nat.zero_add] at hstep
    have hl := flatMap_len cs fun d hd => D.ne d (h d (by simp [hd]))
    have hp := List.length_pos_iff.2 (D.ne c (h c (by simp)))
    have hc := D.collect cs [] c ((enc c ++ cs.flatMap enc).length + 1) (h c (by simp)) (fun d hd => h d (by simp [hd])) (by
      simp only [List.length_append]; omega)
    simp only [List.nil_append, List.length_nil, Nat.zero_add] at hc
    rw [List.flatMap_cons, hstep]
    exact hc

end Lexertl.Utf
