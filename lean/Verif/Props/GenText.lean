import Verif.Proofs.GenText
import Verif.Props.Generated

/-
Property C63: the text of the generated tables.
-/
namespace Lexertl.Props
open Spec

/-- C63.  For every state machine with at least one lexer state `generate` writes, whatever the indentation, tables that read, as
C++ text, as the declarations of the character tables, of the row lengths, of one array per lexer state and, for several lexer
states, of the list of these arrays; and their elements are those of the generated lexer, of which C51 says what it does. -/
theorem C63_text {npos : Nat} {sm : Internals} (hM : Machine npos sm) (hne : sm.dfa ≠ []) (tabs : Nat) (pointers : Bool) :
    ∃ t, dumpTables sm tabs pointers = .ok t ∧
      cTokens [] t =
        lookupDecl ((generate sm pointers).dfas.map (·.lookup)) ++
        alphabetDecl ((generate sm pointers).dfas.map (·.width)) ++
        ((generate sm pointers).dfas.mapIdx fun i d =>
          tableDecl pointers (tableName 16 sm.dfa.length i) (tableName 10 sm.dfa.length i) d.cells).flatten ++
        tablesDecl pointers ((List.range sm.dfa.length).map (tableName 16 sm.dfa.length)) := by
  obtain ⟨t, h1, h2⟩ := GenText.dump_closed hM hne tabs pointers
  refine ⟨t, h1, ?_⟩
  have h3 := h2 []
  simp only [List.append_nil, show cTokens [] [] = [] from rfl] at h3
  obtain ⟨hl, ha⟩ := hM.states
  have e1 : (generate sm pointers).dfas.map (·.lookup) = sm.lookup := by
    apply List.ext_getElem (by simp [generate, genTables])
    intro i hi hi'
    simp [generate, genTables, List.getD_eq_getElem?_getD, hi']
  have e2 : (generate sm pointers).dfas.map (·.width) = sm.alphabet := by
    apply List.ext_getElem (by simp [generate, genTables]; omega)
    intro i hi hi'
    simp [generate, genTables, List.getD_eq_getElem?_getD, hi']
  rw [h3, e1, e2]
  congr 3
  apply List.ext_getElem (by simp [generate, genTables]; omega)
  intro i hi hi'
  simp [generate, genTables]

/-- The elements of the generated tables, in order, are those of the state machine; with pointers, transitions are the address of
the row they lead to. -/
theorem C63_cells {npos : Nat} {sm : Internals} (hM : Machine npos sm) (pointers : Bool) {i r c v : Nat} {rows : List (List Nat)}
    {row : List Nat} (hi : sm.dfa[i]? = some rows) (hr : rows[r]? = some row) (hc : row[c]? = some v) :
    ∃ d, (generate sm pointers).dfas[i]? = some d ∧ d.width = row.length ∧
      d.cells[r * row.length + c]? = some
        (if pointers = true ∧ ((r = 0 ∧ c = 0) ∨ (ixTransitions ≤ c ∧ v ≠ 0)) then .addr (v * row.length) else .num v) := by
  have hlt := (List.getElem?_eq_some_iff.1 hi).1
  have h1 : sm.lookup[i]? = some (sm.lookup[i]'(by rw [hM.states.1]; exact hlt)) := List.getElem?_eq_getElem _
  have hd : sm.dfaAt i = .ok ⟨sm.lookup[i]'(by rw [hM.states.1]; exact hlt), rows⟩ := by
    unfold Internals.dfaAt
    rw [h1, hi]
  have ha : sm.alphabet[i]? = some (sm.alphabet[i]'(by rw [hM.states.2]; exact hlt)) := List.getElem?_eq_getElem _
  have hw := hM.alphabet i _ rows ha hi row (List.mem_of_getElem? hr)
  obtain ⟨d, hd1, T⟩ := Gen.tab hM pointers hd
  have hwd : d.width = row.length := by
    rw [hw]
    simp only [generate, genTables] at hd1
    rw [List.getElem?_map, List.getElem?_range (by rw [hM.states.1]; exact hlt)] at hd1
    simp only [Option.map_some, Option.some.injEq] at hd1
    rw [← hd1]
    simp [List.getD_eq_getElem?_getD, ha]
  refine ⟨d, hd1, hwd, ?_⟩
  have h2 := (T.cell r c v (by simp [getCell, hr, hc])).2
  rw [hwd] at h2
  rw [h2]
  congr 1
  unfold genCell
  cases pointers with
  | false => simp
  | true =>
    by_cases a1 : c = 0 <;> by_cases a2 : r = 0 <;> by_cases a3 : c < ixTransitions <;> by_cases a4 : v = 0 <;>
      simp [a1, a2, a3, a4, Nat.not_le.2, Nat.not_lt.1]
    all_goals first | decide | (simp only [ixTransitions] at *; omega)

/-- The elements of a table with pointers name only tables that are declared, here or before, if and only if there are at most
ten lexer states: from the eleventh on, the declaration has the number of the lexer state in hexadecimal and the elements have it
in decimal. -/
theorem C63_names_partial (n : Nat) :
    (∀ i, i < n → tableName 10 n i ∈ (List.range (i + 1)).map (tableName 16 n)) ↔ n ≤ 10 := by
  have hinj : ∀ i j, n > 1 → tableName 16 n i = tableName 10 n j → numText 16 i = numText 10 j := by
    intro i j hn h
    simp only [tableName, hn, if_true] at h
    exact List.append_cancel_left (List.append_cancel_right h)
  constructor
  · intro h
    refine Nat.le_of_not_lt fun hn => ?_
    obtain ⟨i, hi, he⟩ := List.mem_map.1 (h 10 hn)
    have h1 := hinj _ _ (by omega) he
    have h2 : numText 16 i = numText 16 16 := h1.trans (by decide)
    have := Dump.numText_inj (by omega) (by omega) h2
    simp at hi
    omega
  · intro hn i hi
    refine List.mem_map.2 ⟨i, by simp, ?_⟩
    have : numText 16 i = numText 10 i := by
      have : ∀ i, i < 10 → numText 16 i = numText 10 i := by decide
      exact this i (by omega)
    simp only [tableName, this]

/-- The text says everything about the tables: machines whose texts read the same (whatever the indentation) have the same
tables, so the lexers do the same. -/
theorem C63_determines {npos npos' : Nat} {sm sm' : Internals} (hM : Machine npos sm) (hM' : Machine npos' sm') (hne : sm.dfa ≠ [])
    (hne' : sm'.dfa ≠ []) {tabs tabs' : Nat} {pointers : Bool} {t t' : List Nat} (ht : dumpTables sm tabs pointers = .ok t)
    (ht' : dumpTables sm' tabs' pointers = .ok t') (e : cTokens [] t = cTokens [] t') :
    sm.lookup = sm'.lookup ∧ sm.alphabet = sm'.alphabet ∧ sm.dfa = sm'.dfa :=
  GenText.dump_inj hM hM' hne hne' ht ht' e

/-- A state machine without lexer states: the length of the rows is read from an empty vector. -/
theorem C63_empty_ub (sm : Internals) (h : sm.lookup = [] ∧ sm.alphabet = []) (tabs : Nat) (pointers : Bool) :
    dumpTables sm tabs pointers = .error (.ub "read outside _dfa_alphabet") := by
  simp [dumpTables, lookupsText, alphabetText, h.1, h.2, bind, Except.bind, pure, Except.pure]

set_option maxRecDepth 20000 in
/-- A machine with two lexer states and recursion: there are five declarations, and the second table is `dfa1_`, whose first element
is the address of its row 0. -/
example : Machine Ex.tr.npos Ex.exSafe.sm ∧ Ex.exSafe.sm.dfa.length = 2 ∧
    ((dumpTables Ex.exSafe.sm 1 true).toOption.map fun t => ((cTokens [] t).filter (· == .sign 59)).length) = some 5 ∧
    ((generate Ex.exSafe.sm true).dfas.mapIdx fun i d => (tableDecl true (tableName 16 2 i) (tableName 10 2 i) d.cells).take 11) =
      [[kw "static", kw "const", kw "void", .sign 42, kw "dfa0_", .sign 91, .sign 93, .sign 61, .sign 123, kw "dfa0_", .sign 43],
       [kw "static", kw "const", kw "void", .sign 42, kw "dfa1_", .sign 91, .sign 93, .sign 61, .sign 123, kw "dfa1_", .sign 43]] := by
  refine ⟨(C14_built_tables Ex.targetsPar Ex.builtPar).1, ?_, ?_, ?_⟩ <;> decide +kernel

/-- Text as tokens. -/
example : cTokens [] (chars "static const void* dfaa_[] = {dfa10_ + 0x1c, 0x0, reinterpret_cast<const void*>(0x1)};\n") =
    [kw "static", kw "const", kw "void", .sign 42, kw "dfaa_", .sign 91, .sign 93, .sign 61, .sign 123,
      kw "dfa10_", .sign 43, .num 28, .sign 44, .num 0, .sign 44,
      kw "reinterpret_cast", .sign 60, kw "const", kw "void", .sign 42, .sign 62, .sign 40, .num 1, .sign 41, .sign 125, .sign 59] := by
  decide

/-- The names of the eleventh table. -/
example : tableName 16 11 10 = chars "dfaa_" ∧ tableName 10 11 10 = chars "dfa10_" := by decide

end Lexertl.Props
