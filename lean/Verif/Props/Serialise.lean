import Verif.Proofs.Serialise
import Verif.Props.Example

/-
C22: saving and loading machines.
-/
namespace Lexertl.Props
open Lexertl Spec

namespace Ex
/-- The machine built from the rules of the running example. -/
def saved : Internals := ((buildTemp tr id R).toOption).getD ⟨0, [], [], 0, []⟩
instance (w : Nat) (m : Raw) : Decidable (Fits w m) :=
  decidable_of_iff ((m.eoi ≤ idMax w ∧ m.features ≤ idMax w) ∧ (m.alphabet.length ≤ sizeMax ∧ ∀ x ∈ m.alphabet, x ≤ idMax w) ∧
    m.lookup.length ≤ sizeMax ∧ (∀ v ∈ m.lookup, v.length ≤ sizeMax ∧ ∀ x ∈ v, x ≤ idMax w) ∧ m.dfa.length ≤ sizeMax ∧
    ∀ v ∈ m.dfa, v.length ≤ sizeMax ∧ ∀ x ∈ v, x ≤ idMax w)
    ⟨fun h => ⟨h.1.1, h.1.2, h.2.1, h.2.2.1, h.2.2.2.1, h.2.2.2.2.1, h.2.2.2.2.2⟩,
     fun h => ⟨⟨h.1, h.2⟩, h.3, h.4, h.5, h.6, h.7⟩⟩
set_option maxRecDepth 20000 in
theorem saved_fits : Fits 2 saved.flat ∧ saved.dfa.length = 1 ∧ 20 < (saved.flat.dfa.flatMap id).length := by decide +kernel
end Ex

/-- What `save` writes, `load` reads back: the same machine, whatever the machine loaded into
held before, and whatever white space comes before and whatever text comes after in the
stream.  Of the saved text only white space is left, so that machines can be saved one after
the other into one stream and loaded in the same order. -/
theorem C22_round_trip (cw w : Nat) (hcw : cw ≤ 4) (hw : 2 ≤ w) (hw8 : w ≤ 8) (m old : Raw) (hm : Fits w m) (ws rest : List Nat)
    (hws : Blank ws) : ∃ ws', Blank ws' ∧
      load cw w ⟨ws ++ (save cw w m ++ rest), false⟩ old = (m, ⟨ws' ++ rest, false⟩, .ok ()) :=
  Serialise.load_save (by unfold sizeMax; omega) hw hw8 hm old hws rest

example : ∃ ws', Blank ws' ∧ load 1 2 ⟨save 1 2 Ex.saved.flat ++ save 1 2 Ex.saved.flat, false⟩ Raw.cleared =
    (Ex.saved.flat, ⟨ws' ++ save 1 2 Ex.saved.flat, false⟩, .ok ()) :=
  C22_round_trip 1 2 (by decide) (by decide) (by decide) _ _ Ex.saved_fits.1 [] _ (by simp [Blank])

/-- The loaded machine lexes as the saved one: seen as tables it is the same. -/
theorem C22_same_tables (cw w : Nat) (hcw : cw ≤ 4) (hw : 2 ≤ w) (hw8 : w ≤ 8) (sm : Internals) (hm : Fits w sm.flat) (hwid : Widths sm)
    (old : Raw) : (load cw w ⟨save cw w sm.flat, false⟩ old).1.rows = sm := by
  obtain ⟨ws', _, h⟩ := C22_round_trip cw w hcw hw hw8 sm.flat old hm [] [] (by simp [Blank])
  simp only [List.nil_append, List.append_nil] at h
  rw [h]
  exact Serialise.rows_flat hwid

set_option maxRecDepth 20000 in
example : Widths Ex.saved := by
  have e : Ex.saved.alphabet.length = 1 ∧ Ex.saved.dfa.length = 1 ∧
      ∀ a ∈ Ex.saved.alphabet, 0 < a ∧ ∀ rows ∈ Ex.saved.dfa, ∀ row ∈ rows, row.length = a := by decide +kernel
  refine ⟨by rw [e.1, e.2.1], fun i a rows ha hr => ?_⟩
  have := e.2.2 a (List.mem_of_getElem? ha)
  exact ⟨.inr this.1, this.2 rows (List.mem_of_getElem? hr)⟩

/-- A machine saved for another character type or another id type is refused with an
exception, and the machine loaded into is empty then. -/
theorem C22_wrong_sizes (cw w cw' w' : Nat) (hcw : cw ≤ 4) (hw8 : w ≤ 8) (h : cw ≠ cw' ∨ w ≠ w') (m old : Raw) (rest : List Nat) :
    ∃ s what, load cw' w' ⟨save cw w m ++ rest, false⟩ old = (Raw.cleared, s, .error (.throw what)) := by
  obtain ⟨body, _, h2⟩ := Serialise.load_header (cw := cw) (w := w) (cw' := cw') (w' := w') (by unfold sizeMax; omega)
    (by unfold sizeMax; omega) m old (ws := []) (by simp) rest
  rw [List.nil_append] at h2
  rw [h2]
  by_cases h1 : cw ≠ cw'
  · rw [if_pos h1]; exact ⟨_, _, rfl⟩
  · rw [if_neg h1, if_pos (by omega)]; exact ⟨_, _, rfl⟩

example := C22_wrong_sizes 1 2 4 2 (by decide) (by decide) (.inl (by decide)) Ex.saved.flat Ex.saved.flat []

/-- `load` does not notice that a text is incomplete: the rest of the machine is made of
zeros.  (The sizes of the vectors are taken from what was read last.) -/
theorem C22_truncated : ∃ m m' : Raw, Fits 2 m ∧ m ≠ m' ∧
    (load 1 2 ⟨(save 1 2 m).take 12, false⟩ Raw.cleared).1 = m' ∧
    (load 1 2 ⟨(save 1 2 m).take 12, false⟩ Raw.cleared).2.2.isOk = true :=
  ⟨⟨0, [[7, 8, 9]], [10], 0, [[1, 2, 3]]⟩, _, by decide +kernel, (by decide +kernel : _ ≠ _), rfl, by decide +kernel⟩

/-- Ids of one byte are written as characters but read as numbers: the round trip fails. -/
theorem C22_byte_ids : ∃ m : Raw, Fits 1 m ∧ (load 1 1 ⟨save 1 1 m, false⟩ Raw.cleared).2.2.isOk = true ∧
    (load 1 1 ⟨save 1 1 m, false⟩ Raw.cleared).1 ≠ m :=
  ⟨⟨0, [[7, 8, 9]], [10], 0, [[1, 2, 3]]⟩, by decide +kernel, by decide +kernel, by decide +kernel⟩

end Lexertl.Props
