import Verif.Proofs.CsmMin
import Verif.Props.Tables

/-
C37, C21: char state machines.
-/
namespace Lexertl.Props
open Spec Lexertl.Csm

/-- C37.  `sm_to_csm` converts every machine that `build` can make (`Machine`, see
`C14_built_tables`).  Lexer state `i` becomes char machine `i`; state `k` of it is row `k + 1`
of the table; it says the same about a token that ends there (`SameState`), and it has a
transition on `c` to `t` exactly if the table leads from that row on `c` to row `t + 1`.  The
beginning of line state is that of the table, all states named exist, and a text leads from `a`
to `b` exactly if it leads from row `a + 1` to row `b + 1`. -/
theorem C37_same_machine {npos : Nat} {sm : Internals} (hM : Machine npos sm) :
    ∃ csm, smToCsm npos sm = .ok csm ∧ csm.length = sm.dfa.length ∧
      ∀ (i : Nat) l rows d, sm.lookup[i]? = some l → sm.dfa[i]? = some rows → csm[i]? = some d →
        d.states.length + 1 = rows.length ∧
        (∃ row b, rows[0]? = some row ∧ row[0]? = some b ∧
          ((b = 0 ∧ d.bol = npos) ∨ (b ≠ 0 ∧ d.bol + 1 = b))) ∧
        (∀ (k : Nat) s, d.states[k]? = some s → ∃ row, rows[k + 1]? = some row ∧ SameState npos row s ∧
          ∀ c t, s.Goes c t ↔ ∃ col, l[c]? = some col ∧ row[col]? = some (t + 1)) ∧
        CWell npos d ∧
        (∀ a w b, a < d.states.length → (CPath d a w b ↔ TPath l rows (a + 1) w (b + 1))) := by
  obtain ⟨csm, h1, h2, h3⟩ := csmDfas_spec (npos := npos) sm.lookup sm.alphabet sm.dfa hM.states.1 hM.states.2
    hM.table hM.alphabet
  refine ⟨csm, h1, h2, ?_⟩
  intro i l rows d a1 a2 a3
  have C := h3 i l rows d a1 a2 a3
  obtain ⟨T, _⟩ := hM.table i l rows a1 a2
  obtain ⟨wd, _, _, al⟩ := T.width
  refine ⟨C.size, C.bol, ?_, C.well T, fun a w b hlt => C.path T w a b hlt⟩
  intro k s hs
  obtain ⟨row, r1, r2⟩ := C.state k s hs
  refine ⟨row, r1, r2.same, fun c t => ?_⟩
  rw [r2.goes]
  constructor
  · rintro ⟨col, b1, _, b2⟩; exact ⟨col, b1, b2⟩
  · rintro ⟨col, b1, b2⟩
    refine ⟨col, b1, ?_, b2⟩
    have h6 := (al col (List.mem_of_getElem? b1)).1
    rcases Nat.lt_or_eq_of_le h6 with h | h
    · exact h
    · subst h
      have := T.dead (k + 1) row (t + 1) (by omega) r1 b2
      omega

/-- C37.  A lexer state without an alphabet is skipped, so the numbers of the char machines
after it are no longer those of the lexer states. -/
theorem C37_skips_empty_states (npos : Nat) (l : List Nat) (rows : List Row) (ls : List (List Nat)) (as : List Nat)
    (dfas : List (List Row)) : csmDfas npos (l :: ls) (0 :: as) (rows :: dfas) = csmDfas npos ls as dfas := by
  simp only [csmDfas, csmDfa, if_true, bind, Except.bind]
  cases csmDfas npos ls as dfas <;> rfl

/-- C21.  `minimise` of a char machine returns for every machine whose states exist.  It leaves
no two equal states; the result is the old machine with states merged (`Merged`: which states
end a token, user ids, next lexer states, transitions, end of line and beginning of line states
are those of the old one), so texts lead to the state to which the old state was mapped.  If no
two states were equal it changes nothing.
What is missing from the full property: ids and stack operations are kept only in that last
case, see `C21_minimise_erases`. -/
theorem C21_minimise_partial {npos : Nat} : ∀ (ds : List CDfa), (∀ d ∈ ds, CWell npos d) →
    ∃ ds', csmMinimise npos ds = .ok ds' ∧ ds'.length = ds.length ∧
      ∀ (i : Nat) d d', ds[i]? = some d → ds'[i]? = some d' →
        CWell npos d' ∧ NoTwins d' ∧ d'.states.length ≤ d.states.length ∧ (NoTwins d → d' = d) ∧
        ∃ m, Merged npos d d' m ∧ ∀ a w b', a < d.states.length →
          (CPath d' (m a) w b' ↔ ∃ b, CPath d a w b ∧ m b = b')
  | [], _ => ⟨[], rfl, rfl, by simp⟩
  | d :: ds, h => by
    obtain ⟨ds', e1, e2, e3⟩ := C21_minimise_partial ds (fun d hd => h d (by simp [hd]))
    have W := h d (by simp)
    have key : ∃ d', (if d.states.length > 0 then csmMinimiseLoop npos (d.states.length + 1) d else .ok d) = .ok d' ∧
        CWell npos d' ∧ NoTwins d' ∧ d'.states.length ≤ d.states.length ∧ (NoTwins d → d' = d) ∧
        ∃ m, Merged npos d d' m := by
      by_cases hp : d.states.length > 0
      · rw [if_pos hp]
        obtain ⟨d', m, a1, a2, a3, a4, a5, a6, _⟩ := csmMinimiseLoop_spec (npos := npos) (d.states.length + 1) W hp (by omega)
        exact ⟨d', a1, a2, a4, a5, a6, m, a3⟩
      · rw [if_neg hp]
        exact ⟨d, rfl, W, fun p q _ h => by omega, Nat.le_refl _, fun _ => rfl, id, merged_id⟩
    obtain ⟨d', a1, a2, a3, a4, a5, m, a6⟩ := key
    refine ⟨d' :: ds', ?_, by simp [e2], ?_⟩
    · by_cases hp : d.states.length > 0
      · rw [if_pos hp] at a1
        simp only [csmMinimise, hp, if_true, a1, e1, bind, Except.bind]
      · rw [if_neg hp] at a1
        simp only [csmMinimise, hp, if_false, e1, bind, Except.bind]
        injection a1 with a1; rw [a1]
    intro i x x' hx hx'
    cases i with
    | zero =>
      simp only [List.getElem?_cons_zero, Option.some.injEq] at hx hx'
      subst hx hx'
      exact ⟨a2, a3, a4, a5, m, a6, fun a w b' ha => merged_path a6 W w a b' ha⟩
    | succ i => exact e3 i x x' (by simpa using hx) (by simpa using hx')

/-- C21.  Whenever two states of a machine are equal, `minimise` loses the ids of all its states
and what they push or pop: ids become 1 in end states and 0 elsewhere. -/
theorem C21_minimise_erases {npos : Nat} {ds ds' : List CDfa} (hW : ∀ d ∈ ds, CWell npos d)
    (h : csmMinimise npos ds = .ok ds') : ∀ (i : Nat) d d', ds[i]? = some d → ds'[i]? = some d' →
    ¬ NoTwins d → Erased npos d' := by
  induction ds generalizing ds' with
  | nil => intro i d d' h1; simp at h1
  | cons x ds ih =>
    intro i d d' h1 h2 hT
    have W := hW x (by simp)
    obtain ⟨rest, e1, -⟩ := C21_minimise_partial ds (fun d hd => hW d (by simp [hd]))
    by_cases hp : x.states.length > 0
    · obtain ⟨y, m, a1, -, -, -, -, -, a7, -⟩ := csmMinimiseLoop_spec (npos := npos) (x.states.length + 1) W hp (by omega)
      simp only [csmMinimise, hp, if_true, a1, e1, bind, Except.bind] at h
      cases h
      cases i with
      | zero =>
        simp only [List.getElem?_cons_zero, Option.some.injEq] at h1 h2
        subst h1 h2
        exact a7 hT
      | succ i => exact ih (fun d hd => hW d (by simp [hd])) e1 i d d' (by simpa using h1) (by simpa using h2) hT
    · simp only [csmMinimise, hp, if_false, e1, bind, Except.bind] at h
      cases h
      cases i with
      | zero =>
        simp only [List.getElem?_cons_zero, Option.some.injEq] at h1 h2
        subst h1
        exact absurd (fun p q _ h => by omega) hT
      | succ i => exact ih (fun d hd => hW d (by simp [hd])) e1 i d d' (by simpa using h1) (by simpa using h2) hT

/-! ### Examples -/

/-- Whether a state is an end state, its id and its transitions. -/
structure Brief where
  endState : Bool
  id : Nat
  transitions : List (Nat × List (Nat × Nat))
  deriving DecidableEq

/-- The same of a state. -/
def brief (s : CState) : Brief := ⟨s.endState, s.id, s.transitions⟩

set_option maxRecDepth 20000 in
/-- The machine of the parenthesis rules converts: two char machines, the states of the first
with their ids. -/
example : Machine Ex.tr.npos Ex.exSafe.sm ∧
    (smToCsm Ex.tr.npos Ex.exSafe.sm).toOption.map (fun csm => csm.map fun d => d.states.map brief) =
      some [[⟨false, 0, [(1, [(97, 97)]), (2, [(40, 40)])]⟩, ⟨true, 1, []⟩, ⟨true, 2, []⟩],
            [⟨false, 0, [(1, [(40, 40)]), (2, [(41, 41)]), (3, [(99, 99)])]⟩, ⟨true, 2, []⟩, ⟨true, 3, []⟩, ⟨true, 65534, []⟩]] := by
  refine ⟨(C14_built_tables Ex.targetsPar Ex.builtPar).1, ?_⟩
  decide +kernel

set_option maxRecDepth 20000 in
/-- C37.  A state in which no token ends is marked as pushing lexer state 0, because its row
holds 0 and not `npos` as push state. -/
theorem C37_plain_states_push : (smToCsm Ex.tr.npos Ex.exSafe.sm).toOption.map (fun csm =>
    (csm.flatMap fun d => d.states).filterMap fun s => if s.endState then none else some (s.pushPop, s.pushDfa)) =
    some [(.push, 0), (.push, 0)] := by decide +kernel

/-- Two end states with ids 5 and 7, and two equal states that are not end states. -/
def exTwins : CDfa :=
  ⟨65535, [⟨false, .neither, 0, 65535, 65535, 0, 65535, [(1, [(97, 97)]), (2, [(98, 98)]), (3, [(99, 99)]), (4, [(100, 100)])]⟩,
    ⟨true, .push, 5, 65535, 1, 0, 65535, []⟩, ⟨true, .neither, 7, 65535, 65535, 0, 65535, []⟩,
    ⟨false, .neither, 0, 65535, 65535, 0, 65535, [(1, [(97, 97)])]⟩,
    ⟨false, .neither, 0, 65535, 65535, 0, 65535, [(1, [(97, 97)])]⟩]⟩

/-- C21.  `minimise` merges the end states of two different tokens: the tokens `a` (id 5, pushes)
and `b` (id 7) both become id 1. -/
theorem C21_merges_tokens : csmMinimise 65535 [exTwins] = .ok [⟨65535,
    [⟨false, .neither, 0, 65535, 65535, 0, 65535, [(1, [(97, 98)]), (2, [(99, 100)])]⟩,
     ⟨true, .neither, 1, 65535, 65535, 0, 65535, []⟩,
     ⟨false, .neither, 0, 65535, 65535, 0, 65535, [(1, [(97, 97)])]⟩]⟩] := by rfl

example : CWell 65535 exTwins ∧ ¬ NoTwins exTwins := by
  refine ⟨⟨by decide, by decide, by decide, ?_⟩, fun h => h 3 4 (by decide) (by decide) (by decide)⟩
  intro s hs t set ht
  simp only [exTwins, List.mem_cons, List.not_mem_nil, or_false] at hs
  rcases hs with rfl | rfl | rfl | rfl | rfl <;>
    simp only [List.mem_cons, List.not_mem_nil, or_false, Prod.mk.injEq] at ht
  · rcases ht with ⟨rfl, rfl⟩ | ⟨rfl, rfl⟩ | ⟨rfl, rfl⟩ | ⟨rfl, rfl⟩ <;>
      exact ⟨by decide, by simp [Normal]⟩
  · obtain ⟨rfl, rfl⟩ := ht; exact ⟨by decide, by simp [Normal]⟩
  · obtain ⟨rfl, rfl⟩ := ht; exact ⟨by decide, by simp [Normal]⟩

end Lexertl.Props
