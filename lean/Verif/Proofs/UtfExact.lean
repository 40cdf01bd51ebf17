import Verif.Proofs.Utf

/-
What the decoders of `utf_iterators.hpp` take, exactly.
-/
namespace Lexertl.Utf
open Spec

/-- `F c form`: the decoder takes `form` for `c`, and nothing else. -/
structure Exact (next : List Nat → UtfIn → UtfIn × M Unit) (F : Nat → List Nat → Prop) (top : Nat) : Prop where
  ne : ∀ c form, F c form → form ≠ []
  step : ∀ pre c form post (s : UtfIn), F c form → s.it = pre.length →
    next (pre ++ (form ++ post)) s = (⟨pre.length, pre.length + form.length, c⟩, .ok ())
  only : ∀ pre post (s : UtfIn), (∀ b ∈ pre ++ post, b < top) → s.it = pre.length → post ≠ [] → (next (pre ++ post) s).2 = .ok () →
    ∃ c form post', F c form ∧ post = form ++ post'
  stop : ∀ inp (s : UtfIn), s.it = inp.length → next inp s = (s, .ok ())

theorem Exact.collect {next : List Nat → UtfIn → UtfIn × M Unit} {F : Nat → List Nat → Prop} {top : Nat} (D : Exact next F top) :
    ∀ (xs : List (Nat × List Nat)) (pre form : List Nat) (c n : Nat), F c form → (∀ x ∈ xs, F x.1 x.2) → xs.length + 1 < n →
      UtfIn.collect (pre ++ (form ++ xs.flatMap (·.2))) (next (pre ++ (form ++ xs.flatMap (·.2)))) n
        ⟨pre.length, pre.length + form.length, c⟩ = .ok (c :: xs.map (·.1))
  | xs, pre, form, c, 0, _, _, h => by omega
  | xs, pre, form, c, 1, _, _, h => by omega
  | [], pre, form, c, n + 2, hc, _, _ => by
    have hp := List.length_pos_iff.2 (D.ne c form hc)
    unfold UtfIn.collect
    rw [if_neg (by simp only [List.length_append]; omega)]
    unfold UtfIn.inc
    dsimp only
    rw [D.stop _ _ (by simp)]
    unfold UtfIn.collect
    rw [if_pos (by simp)]
    rfl
  | x :: xs, pre, form, c, n + 2, hc, hcs, hn => by
    have hp := List.length_pos_iff.2 (D.ne c form hc)
    have hstep := D.step (pre ++ form) x.1 x.2 (xs.flatMap (·.2)) ⟨pre.length + form.length, pre.length + form.length, c⟩
      (hcs x (by simp)) (by simp)
    have ih := Exact.collect D xs (pre ++ form) x.2 x.1 (n + 1) (hcs x (by simp)) (fun y hy => hcs y (by simp [hy]))
      (by simp at hn ⊢; omega)
    unfold UtfIn.collect
    rw [if_neg (by simp only [List.length_append]; omega)]
    unfold UtfIn.inc
    dsimp only
    rw [List.flatMap_cons, ← List.append_assoc pre, hstep]
    simp only [List.length_append] at ih ⊢
    rw [ih]
    rfl

theorem Exact.collect_only {next : List Nat → UtfIn → UtfIn × M Unit} {F : Nat → List Nat → Prop} {top : Nat} (D : Exact next F top) :
    ∀ (n : Nat) (pre form post : List Nat) (c : Nat) (out : List Nat), (∀ b ∈ pre ++ (form ++ post), b < top) → F c form →
      UtfIn.collect (pre ++ (form ++ post)) (next (pre ++ (form ++ post))) n ⟨pre.length, pre.length + form.length, c⟩ = .ok out →
      ∃ xs : List (Nat × List Nat), (∀ x ∈ xs, F x.1 x.2) ∧ out = c :: xs.map (·.1) ∧ post = xs.flatMap (·.2)
  | 0, _, _, _, _, _, _, _, h => by cases h
  | n + 1, pre, form, post, c, out, hb, hc, h => by
    have hp := List.length_pos_iff.2 (D.ne c form hc)
    unfold UtfIn.collect at h
    rw [if_neg (by simp only [List.length_append]; omega)] at h
    unfold UtfIn.inc at h
    dsimp only at h
    by_cases hpost : post = []
    · subst hpost
      rw [D.stop _ _ (by simp)] at h
      cases n with
      | zero => cases h
      | succ n =>
        unfold UtfIn.collect at h
        rw [if_pos (by simp)] at h
        cases h
        exact ⟨[], by simp, rfl, rfl⟩
    · rw [← List.append_assoc pre] at h
      have hok : (next (pre ++ form ++ post) ⟨pre.length + form.length, pre.length + form.length, c⟩).2 = .ok () := by
        generalize next (pre ++ form ++ post) ⟨pre.length + form.length, pre.length + form.length, c⟩ = y at h
        obtain ⟨y1, y2⟩ := y
        cases y2 with
        | ok _ => rfl
        | error e => cases h
      obtain ⟨d, form', post', h1, rfl⟩ := D.only (pre ++ form) post ⟨pre.length + form.length, pre.length + form.length, c⟩
        (by rw [List.append_assoc]; exact hb) (by simp) hpost hok
      have hstep := D.step (pre ++ form) d form' post' ⟨pre.length + form.length, pre.length + form.length, c⟩ h1 (by simp)
      rw [hstep] at h
      simp only [bind, Except.bind] at h
      split at h
      · cases h
      · rename_i out' ho
        cases h
        obtain ⟨xs, g1, rfl, rfl⟩ := Exact.collect_only D n (pre ++ form) form' post' d out'
          (by rw [List.append_assoc]; exact hb) h1 ho
        refine ⟨(d, form') :: xs, ?_, rfl, rfl⟩
        intro x hx
        rcases List.mem_cons.1 hx with rfl | hx
        · exact h1
        · exact g1 x hx

theorem Exact.len {next : List Nat → UtfIn → UtfIn × M Unit} {F : Nat → List Nat → Prop} {top : Nat} (D : Exact next F top) :
    ∀ (xs : List (Nat × List Nat)), (∀ x ∈ xs, F x.1 x.2) → xs.length ≤ (xs.flatMap (·.2)).length
  | [], _ => by simp
  | x :: xs, h => by
    have h1 := List.length_pos_iff.2 (D.ne x.1 x.2 (h x (by simp)))
    have h2 := Exact.len D xs fun d hd => h d (by simp [hd])
    simp only [List.length_cons, List.flatMap_cons, List.length_append]
    omega

theorem Exact.all {next : List Nat → UtfIn → UtfIn × M Unit} {F : Nat → List Nat → Prop} {top : Nat} (D : Exact next F top)
    (inp : List Nat) (hb : ∀ b ∈ inp, b < top) (out : List Nat) : UtfIn.all inp (next inp) = .ok out ↔
      ∃ xs : List (Nat × List Nat), (∀ x ∈ xs, F x.1 x.2) ∧ xs.map (·.1) = out ∧ xs.flatMap (·.2) = inp := by
  unfold UtfIn.all UtfIn.new
  constructor
  · intro h
    by_cases hi : inp = []
    · subst hi
      rw [D.stop _ _ rfl] at h
      cases h
      exact ⟨[], by simp, rfl, rfl⟩
    · have hok : (next ([] ++ inp) ⟨0, 0, 0⟩).2 = .ok () := by
        rw [List.nil_append]
        generalize next inp ⟨0, 0, 0⟩ = y at h
        obtain ⟨y1, y2⟩ := y
        cases y2 with
        | ok _ => rfl
        | error e => cases h
      obtain ⟨c, form, post, h1, rfl⟩ := D.only [] inp ⟨0, 0, 0⟩ (by simpa using hb) rfl hi hok
      have hstep := D.step [] c form post ⟨0, 0, 0⟩ h1 rfl
      simp only [List.nil_append, List.length_nil, Nat.zero_add] at hstep
      rw [hstep] at h
      have := D.collect_only ((form ++ post).length + 1) [] form post c out (by simpa using hb) h1 (by
        simp only [List.nil_append, List.length_nil, Nat.zero_add]
        exact h)
      obtain ⟨xs, g1, rfl, rfl⟩ := this
      refine ⟨(c, form) :: xs, ?_, rfl, rfl⟩
      intro x hx
      rcases List.mem_cons.1 hx with rfl | hx
      · exact h1
      · exact g1 x hx
  · rintro ⟨xs, h, rfl, rfl⟩
    cases xs with
    | nil =>
      rw [D.stop _ _ rfl]
      rfl
    | cons x xs =>
      have hstep := D.step [] x.1 x.2 (xs.flatMap (·.2)) ⟨0, 0, 0⟩ (h x (by simp)) rfl
      simp only [List.nil_append, List.length_nil, Nat.zero_add] at hstep
      have hl := D.len xs fun d hd => h d (by simp [hd])
      have hp := List.length_pos_iff.2 (D.ne x.1 x.2 (h x (by simp)))
      have hc := D.collect xs [] x.2 x.1 ((x.2 ++ xs.flatMap (·.2)).length + 1) (h x (by simp)) (fun d hd => h d (by simp [hd])) (by
        simp only [List.length_append]; omega)
      simp only [List.nil_append, List.length_nil, Nat.zero_add] at hc
      rw [List.flatMap_cons, hstep]
      exact hc

/-! ### UTF-8 -/

theorem val2 (a b : Nat) (ha : a < 32) (hb : b < 64) : ((192 + a) &&& 255) <<< 6 &&& 2047 ||| 128 + b &&& 63 = 64 * a + b := by
  rw [and_ff, and_7ff, and_3f, Nat.shiftLeft_eq, Nat.mod_eq_of_lt (a := 192 + a) (by omega)]
  rw [show (192 + a) * 2 ^ 6 % 2048 = a * 2 ^ 6 by omega, show (128 + b) % 64 = b by omega, or_add _ _ _ (by omega)]
  omega

theorem val3 (a b c : Nat) (ha : a < 16) (hb : b < 64) (hc : c < 64) :
    ((224 + a &&& 255) <<< 12 &&& 65535 ||| (128 + b &&& 255) <<< 6 &&& 4095) ||| 128 + c &&& 63 = 4096 * a + 64 * b + c := by
  rw [and_ff, and_ff, and_ffff, and_fff, and_3f, Nat.shiftLeft_eq, Nat.shiftLeft_eq,
    Nat.mod_eq_of_lt (a := 224 + a) (by omega), Nat.mod_eq_of_lt (a := 128 + b) (by omega)]
  rw [show (224 + a) * 2 ^ 12 % 65536 = a * 2 ^ 12 by omega, show (128 + b) * 2 ^ 6 % 4096 = b * 2 ^ 6 by omega,
    show (128 + c) % 64 = c by omega, or_add _ _ _ (by omega)]
  rw [show a * 2 ^ 12 + b * 2 ^ 6 = (64 * a + b) * 2 ^ 6 by omega, or_add _ _ _ (by omega)]
  omega

theorem val4 (a b c d : Nat) (ha : a < 8) (hb : b < 64) (hc : c < 64) (hd : d < 64) :
    (((240 + a &&& 255) <<< 18 &&& 2097151 ||| (128 + b &&& 255) <<< 12 &&& 262143) |||
      (128 + c &&& 255) <<< 6 &&& 4095) ||| 128 + d &&& 63 = 262144 * a + 4096 * b + 64 * c + d := by
  rw [and_ff, and_ff, and_ff, and_1fffff, and_3ffff, and_fff, and_3f, Nat.shiftLeft_eq, Nat.shiftLeft_eq, Nat.shiftLeft_eq,
    Nat.mod_eq_of_lt (a := 240 + a) (by omega), Nat.mod_eq_of_lt (a := 128 + b) (by omega), Nat.mod_eq_of_lt (a := 128 + c) (by omega)]
  rw [show (240 + a) * 2 ^ 18 % 2097152 = a * 2 ^ 18 by omega, show (128 + b) * 2 ^ 12 % 262144 = b * 2 ^ 12 by omega,
    show (128 + c) * 2 ^ 6 % 4096 = c * 2 ^ 6 by omega, show (128 + d) % 64 = d by omega, or_add _ _ _ (by omega)]
  rw [show a * 2 ^ 18 + b * 2 ^ 12 = (64 * a + b) * 2 ^ 12 by omega, or_add _ _ _ (by omega)]
  rw [show (64 * a + b) * 2 ^ 12 + c * 2 ^ 6 = (4096 * a + 64 * b + c) * 2 ^ 6 by omega, or_add _ _ _ (by omega)]
  omega

theorem utf8Cont_only {pre post : List Nat} (hb : ∀ b ∈ pre ++ post, b < 256) {k x : Nat}
    (h : utf8Cont (pre ++ post) (pre.length + k) = .ok x) : ∃ b, b < 64 ∧ post[k]? = some (0x80 + b) := by
  unfold utf8Cont at h
  split at h
  · cases h
  · rw [get_at'] at h
    split at h
    · cases h
    · rename_i b hk
      split at h
      · cases h
      · rename_i hc
        have hlt := hb b (List.mem_append_right _ (List.mem_of_getElem? hk))
        have := (cont_iff b hlt).1 (by simpa using hc)
        exact ⟨b - 128, by omega, by rw [hk, show 0x80 + (b - 128) = b by omega]⟩

theorem utf8_exact : Exact utf8Next LaxUtf8 256 where
  ne c form h := by cases h <;> simp
  stop inp s h := by unfold utf8Next; rw [if_pos h]
  step pre c form post s hc hs := by
    unfold utf8Next
    have hne : form ≠ [] := by cases hc <;> simp
    have hlt : s.it ≠ (pre ++ (form ++ post)).length := by
      have := List.length_pos_iff.2 hne
      simp only [List.length_append]
      omega
    rw [if_neg hlt, hs]
    clear hne hlt
    cases hc with
    | one _ h =>
      rw [List.singleton_append, get_at]
      dsimp only
      rw [utf8Len_eq (by omega), if_pos h]
      rw [and_ff, Nat.mod_eq_of_lt (by omega)]
      rfl
    | two a b ha hb =>
      rw [List.cons_append, get_at]
      dsimp only
      rw [utf8Len_eq (by omega), if_neg (by omega), if_pos (by omega)]
      dsimp only [utf8Next2]
      rw [utf8Cont_ok (b := 0x80 + b) (by rw [get_at']; rfl) (by omega) (by omega)]
      dsimp only
      rw [val2 a b ha hb]
      rfl
    | three a b c ha hb hc =>
      rw [List.cons_append, get_at]
      dsimp only
      rw [utf8Len_eq (by omega), if_neg (by omega), if_neg (by omega), if_pos (by omega)]
      dsimp only [utf8Next3]
      rw [utf8Cont_ok (b := 0x80 + b) (by rw [get_at']; rfl) (by omega) (by omega)]
      dsimp only
      rw [utf8Cont_ok (b := 0x80 + c) (by rw [get_at']; rfl) (by omega) (by omega)]
      dsimp only
      rw [val3 a b c ha hb hc]
      rfl
    | four a b c d ha hb hc hd =>
      rw [List.cons_append, get_at]
      dsimp only
      rw [utf8Len_eq (by omega), if_neg (by omega), if_neg (by omega), if_neg (by omega), if_pos (by omega)]
      dsimp only [utf8Next4]
      rw [utf8Cont_ok (b := 0x80 + b) (by rw [get_at']; rfl) (by omega) (by omega)]
      dsimp only
      rw [utf8Cont_ok (b := 0x80 + c) (by rw [get_at']; rfl) (by omega) (by omega)]
      dsimp only
      rw [utf8Cont_ok (b := 0x80 + d) (by rw [get_at']; rfl) (by omega) (by omega)]
      dsimp only
      rw [val4 a b c d ha hb hc hd]
      rfl
  only pre post s hb hs hne h := by
    cases post with
    | nil => exact absurd rfl hne
    | cons x post =>
      unfold utf8Next at h
      rw [if_neg (by simp only [List.length_append, List.length_cons]; omega), hs, get_at] at h
      dsimp only at h
      have hx := hb x (by simp)
      rw [utf8Len_eq hx] at h
      by_cases h1 : x < 128
      · exact ⟨x, [x], post, .one x h1, rfl⟩
      rw [if_neg h1] at h
      by_cases h2 : 192 ≤ x ∧ x < 224
      · rw [if_pos h2] at h
        dsimp only [utf8Next2] at h
        cases e1 : utf8Cont (pre ++ x :: post) (pre.length + 1) with
        | error e => rw [e1] at h; cases h
        | ok y =>
          obtain ⟨b, hb1, hk1⟩ := utf8Cont_only hb e1
          match post, hk1 with
          | _ :: post, hk1 =>
            simp only [List.getElem?_cons_succ, List.getElem?_cons_zero, Option.some.injEq] at hk1
            subst hk1
            refine ⟨_, _, post, .two (x - 192) b (by omega) hb1, ?_⟩
            rw [show 192 + (x - 192) = x by omega]
            rfl
      rw [if_neg h2] at h
      by_cases h3 : 224 ≤ x ∧ x < 240
      · rw [if_pos h3] at h
        dsimp only [utf8Next3] at h
        cases e1 : utf8Cont (pre ++ x :: post) (pre.length + 1) with
        | error e => rw [e1] at h; cases h
        | ok y =>
          rw [e1] at h
          dsimp only at h
          cases e2 : utf8Cont (pre ++ x :: post) (pre.length + 2) with
          | error e => rw [e2] at h; cases h
          | ok z =>
            obtain ⟨b, hb1, hk1⟩ := utf8Cont_only hb e1
            obtain ⟨c, hb2, hk2⟩ := utf8Cont_only hb e2
            match post, hk1, hk2 with
            | _ :: _ :: post, hk1, hk2 =>
              simp only [List.getElem?_cons_succ, List.getElem?_cons_zero, Option.some.injEq] at hk1 hk2
              subst hk1 hk2
              refine ⟨_, _, post, .three (x - 224) b c (by omega) hb1 hb2, ?_⟩
              rw [show 224 + (x - 224) = x by omega]
              rfl
            | [_], hk1, hk2 => simp at hk2
      rw [if_neg h3] at h
      by_cases h4 : 240 ≤ x ∧ x < 248
      · rw [if_pos h4] at h
        dsimp only [utf8Next4] at h
        cases e1 : utf8Cont (pre ++ x :: post) (pre.length + 1) with
        | error e => rw [e1] at h; cases h
        | ok y =>
          rw [e1] at h
          dsimp only at h
          cases e2 : utf8Cont (pre ++ x :: post) (pre.length + 2) with
          | error e => rw [e2] at h; cases h
          | ok z =>
            rw [e2] at h
            dsimp only at h
            cases e3 : utf8Cont (pre ++ x :: post) (pre.length + 3) with
            | error e => rw [e3] at h; cases h
            | ok w =>
              obtain ⟨b, hb1, hk1⟩ := utf8Cont_only hb e1
              obtain ⟨c, hb2, hk2⟩ := utf8Cont_only hb e2
              obtain ⟨d, hb3, hk3⟩ := utf8Cont_only hb e3
              match post, hk1, hk2, hk3 with
              | _ :: _ :: _ :: post, hk1, hk2, hk3 =>
                simp only [List.getElem?_cons_succ, List.getElem?_cons_zero, Option.some.injEq] at hk1 hk2 hk3
                subst hk1 hk2 hk3
                refine ⟨_, _, post, .four (x - 240) b c d (by omega) hb1 hb2 hb3, ?_⟩
                rw [show 240 + (x - 240) = x by omega]
                rfl
              | [_, _], hk1, hk2, hk3 => simp at hk3
              | [_], hk1, hk2, _ => simp at hk2
      rw [if_neg h4] at h
      cases h

/-! ### UTF-16 -/

theorem utf16_exact : Exact utf16Next (fun c form => Scalar c ∧ form = utf16 c) 65536 where
  ne c form h := by rw [h.2]; exact utf16_ne c
  stop := utf16_decodes.stop
  step pre c form post s hc hs := by
    rw [hc.2]
    exact utf16_decodes.step pre c post s hc.1 hs
  only pre post s hb hs hne h := by
    cases post with
    | nil => exact absurd rfl hne
    | cons x post =>
      have hx := hb x (by simp)
      unfold utf16Next at h
      rw [if_neg (by simp only [List.length_append, List.length_cons]; omega), hs, get_at] at h
      dsimp only at h
      split at h
      · rename_i h1
        refine ⟨x, [x], post, ⟨?_, ?_⟩, rfl⟩
        · unfold Scalar; omega
        · unfold utf16; rw [if_pos hx]
      · rename_i h1
        split at h
        · cases h
        · rename_i h2
          split at h
          · cases h
          · rw [get_at'] at h
            cases post with
            | nil => simp at h
            | cons y post =>
              simp only [List.getElem?_cons_succ, List.getElem?_cons_zero] at h
              split at h
              · cases h
              · rename_i h3
                refine ⟨0x10000 + (x - 0xd800) * 1024 + (y - 0xdc00), [x, y], post, ⟨?_, ?_⟩, rfl⟩
                · unfold Scalar; omega
                · unfold utf16
                  have e1 : 0xd800 + (0x10000 + (x - 0xd800) * 1024 + (y - 0xdc00) - 0x10000) / 1024 = x := by omega
                  have e2 : 0xdc00 + (0x10000 + (x - 0xd800) * 1024 + (y - 0xdc00) - 0x10000) % 1024 = y := by omega
                  rw [if_neg (by omega), e1, e2]

end Lexertl.Utf
