import Verif.Proofs.Wc
import Verif.Props.Calls

/-
C65: the example program that counts lines, words and characters.
-/
namespace Lexertl.Props
open Spec

/-- The machine of the program. -/
theorem wc_machine (addr : Nat → Nat) : ∃ sm, buildTemp Ex.tr addr (Ex.runs Wc.calls Ex.obj0).rules = .ok sm ∧ sm.eoi = 0 := by
  rw [C13_address_independent Ex.tr addr (fun i => i)]
  have : ((buildTemp Ex.tr (fun i => i) (Ex.runs Wc.calls Ex.obj0).rules).toOption.map (·.eoi)) = some 0 := by decide +kernel
  obtain ⟨sm, h1, h2⟩ := Option.map_eq_some_iff.1 this
  refine ⟨sm, toOption_some h1, h2⟩

/-- C65: for every file of less than 2³¹ bytes, the program ends, without a failed assertion
and without undefined behaviour, and prints the number of newlines, the number of words and
the number of bytes. -/
theorem C65_wc_counts (addr : Nat → Nat) {inp : List Nat} (hinp : ∀ c ∈ inp, c < 256) (hlen : inp.length < 2 ^ 31) :
    Wc.main Ex.env Ex.tr addr inp = .ok ⟨inp.length, Spec.Wc.words inp, Spec.Wc.lines inp⟩ := by
  obtain ⟨⟨o, ho⟩, hlex⟩ := C49_program_lexes Ex.envOk Ex.charsOk (tr := Ex.tr) (by decide) (by decide) Wc.program (by decide) (by decide)
    (fun h => by cases h) (by decide)
  obtain ⟨h1, h2⟩ := Wc.rules_eq ho
  obtain ⟨sm, h3, h4⟩ := wc_machine addr
  rw [← h2] at h3
  unfold Wc.main
  rw [h1]
  simp only [bind, Except.bind]
  rw [h3]
  simp only
  rw [Wc.loop_counts h4 hinp hlen (fun r => hlex o ho addr sm h3 Wc.flags inp hinp r) (inp.length + 1) _ _ rfl rfl (Nat.zero_le _)
    (by simp [Results.mk']) rfl (by simp [Results.mk']) (by simp [Results.mk'])]
  simp only [Results.mk', List.drop_zero, Int.zero_add]
  rw [Wc.words_eq]

/-- C65: the alternative `\r` of the rule for newlines never counts: a `\r` not followed by
`\n` is (part of) a word. -/
theorem C65_lone_cr_is_a_word (addr : Nat → Nat) : Wc.main Ex.env Ex.tr addr [97, 32, 13, 32, 98] = .ok ⟨5, 3, 0⟩ :=
  (C65_wc_counts addr (by decide) (by decide)).trans rfl

/-- `"ab\r\n \r\n\tc d\n"`: 3 words, 3 lines, 12 characters. -/
example : Wc.main Ex.env Ex.tr (fun i => i) (chars "ab\r\n \r\n\tc d\n") = .ok ⟨12, 3, 3⟩ :=
  (C65_wc_counts _ (by decide) (by decide)).trans rfl

end Lexertl.Props
