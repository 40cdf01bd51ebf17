import Verif.Proofs.StateProgram
import Verif.Props.Rules

/-
Which texts for lexer states `push` takes, and what it makes of them (C32).
-/
namespace Lexertl.InStates
open Spec

theorem Named.find_iff {tr : Traits} {o : RulesObj} {names : List (List Nat)} (h : Named tr o names) {name : List Nat} {v : Nat}
    (hf : Lexertl.find name o.statemap = some v) : names[v]? = some name := by
  rw [h.ok.map, find_numbered _ _ _ _ h.ok.nodup] at hf
  obtain ⟨j, hj, rfl⟩ := hf
  rw [h.names] at hj
  have : j < names.length := (List.getElem?_eq_some_iff.1 hj).1
  have := h.small
  rw [Nat.zero_add, toId_small (by omega)]
  exact hj

theorem splitColon_cases : ∀ (w : List Nat), (RulesObj.splitColon w = (w, none)) ∨ ∃ a b, RulesObj.splitColon w = (a, some b) ∧ w = a ++ 58 :: b
  | [] => .inl rfl
  | c :: cs => by
    unfold RulesObj.splitColon
    split
    · rename_i h
      exact .inr ⟨[], cs, rfl, by rw [h]; rfl⟩
    · rcases splitColon_cases cs with h | ⟨a, b, h, e⟩
      · rw [h]
        exact .inl rfl
      · rw [h]
        exact .inr ⟨c :: a, b, rfl, by rw [e]; rfl⟩

theorem splitComma_cases : ∀ (w : List Nat), (w = [] ∧ RulesObj.splitComma w = []) ∨
    (∃ n, RulesObj.splitComma w = [n] ∧ (w = n ∨ w = n ++ [44])) ∨
    ∃ n w', w = n ++ 44 :: w' ∧ w' ≠ [] ∧ RulesObj.splitComma w = n :: RulesObj.splitComma w'
  | [] => .inl ⟨rfl, rfl⟩
  | [c] => by
    by_cases h : c = 44
    · exact .inr (.inl ⟨[], by simp [RulesObj.splitComma, h], .inr (by simp [h])⟩)
    · exact .inr (.inl ⟨[c], by simp [RulesObj.splitComma, h], .inl rfl⟩)
  | c :: d :: cs => by
    by_cases h : c = 44
    · refine .inr (.inr ⟨[], d :: cs, by rw [h]; rfl, by simp, ?_⟩)
      rw [RulesObj.splitComma.eq_def]
      simp [h]
    · rcases splitComma_cases (d :: cs) with ⟨h1, _⟩ | ⟨n, h1, h2⟩ | ⟨n, w', h1, h2, h3⟩
      · cases h1
      · refine .inr (.inl ⟨c :: n, ?_, ?_⟩)
        · rw [RulesObj.splitComma.eq_def]
          simp [h, h1]
        · rcases h2 with h2 | h2
          · exact .inl (by rw [h2])
          · exact .inr (by rw [h2]; rfl)
      · refine .inr (.inr ⟨c :: n, w', by rw [h1]; rfl, h2, ?_⟩)
        rw [RulesObj.splitComma.eq_def]
        simp [h, h3]

theorem Named.known_only {tr : Traits} {o : RulesObj} {names : List (List Nat)} (h : Named tr o names) {name : List Nat} {j : Nat}
    (hk : o.known name = .ok j) : names[j]? = some name := by
  unfold RulesObj.known at hk
  split at hk
  · cases hk
  · split at hk
    · cases hk
    · rename_i i hi
      cases hk
      exact h.find_iff hi

theorem Named.list_only {tr : Traits} {o : RulesObj} {names : List (List Nat)} (h : Named tr o names) : ∀ (k : Nat) (w js : List Nat), w.length ≤ k →
    (RulesObj.splitComma w).mapM (fun name => o.known name) = .ok js →
    (w = [] ∧ js = []) ∨ NameList names w js ∨ ∃ v, w = v ++ [44] ∧ NameList names v js
  | k, w, js, hk, hm => by
    rcases splitComma_cases w with ⟨rfl, h1⟩ | ⟨n, h1, h2⟩ | ⟨n, w', rfl, h2, h3⟩
    · rw [h1] at hm
      cases hm
      exact .inl ⟨rfl, rfl⟩
    · rw [h1, List.mapM_cons, List.mapM_nil] at hm
      cases hn : o.known n with
      | error e => rw [hn] at hm; cases hm
      | ok j =>
        rw [hn] at hm
        cases hm
        have hl := NameList.one n j (h.known_only hn)
        rcases h2 with rfl | rfl
        · exact .inr (.inl hl)
        · exact .inr (.inr ⟨n, rfl, hl⟩)
    · rw [h3, List.mapM_cons] at hm
      cases hn : o.known n with
      | error e => rw [hn] at hm; cases hm
      | ok j =>
        rw [hn] at hm
        cases hr : (RulesObj.splitComma w').mapM (fun name => o.known name) with
        | error e =>
          simp only [bind, Except.bind] at hm
          rw [hr] at hm
          cases hm
        | ok js' =>
          simp only [bind, Except.bind] at hm
          rw [hr] at hm
          cases hm
          match k, hk with
          | 0, hk => simp at hk
          | k + 1, hk =>
            rcases h.list_only k w' js' (by simp at hk; omega) hr with ⟨rfl, _⟩ | hl | ⟨v, rfl, hl⟩
            · exact absurd rfl h2
            · exact .inr (.inl (.more n j w' js' (h.known_only hn) hl))
            · exact .inr (.inr ⟨n ++ 44 :: v, by simp, .more n j v js' (h.known_only hn) hl⟩)

theorem Named.leads_only {tr : Traits} {o : RulesObj} {names : List (List Nat)} (h : Named tr o names) {new : List Nat} {t : RulesObj.Target} {ids : Nat × Nat}
    (h1 : RulesObj.parseTarget new = .ok t) (h2 : o.targetIds tr t = .ok ids) :
    ∃ g, (Leads tr.npos names new g ∨ (new.head? = some 60 ∧ g = fun _ => (tr.npos, tr.npos, true))) ∧
      ∀ i id uid ts, RulesObj.mkRule tr t ids i id uid ts = ⟨ts, id, uid, (g i).1, (g i).2.1, (g i).2.2⟩ := by
  unfold RulesObj.parseTarget at h1
  split at h1
  · rename_i e
    cases h1
    cases h2
    subst e
    exact ⟨_, .inl Leads.stay, fun _ _ _ _ => rfl⟩
  split at h1
  · rename_i e
    cases h1
    cases h2
    exact ⟨_, .inr ⟨e, rfl⟩, fun _ _ _ _ => rfl⟩
  dsimp only at h1
  by_cases hp : new.head? = some 62
  · obtain ⟨w, rfl⟩ : ∃ w, new = 62 :: w := by
      cases new with
      | nil => cases hp
      | cons c w => cases hp; exact ⟨w, rfl⟩
    simp only [List.head?_cons, if_true, List.tail_cons] at h1
    rcases splitColon_cases w with h3 | ⟨a, b, h3, rfl⟩
    · rw [h3] at h1
      dsimp only at h1
      split at h1
      · cases h1
      · simp only [Option.all_none, if_true] at h1
        cases h1
        simp only [RulesObj.targetIds] at h2
        split at h2
        · cases h2
        · rename_i i hi
          cases h2
          exact ⟨_, .inl (.push w i (h.find_iff hi)), fun _ _ _ _ => rfl⟩
    · rw [h3] at h1
      dsimp only at h1
      split at h1
      · cases h1
      · split at h1
        · cases h1
          simp only [RulesObj.targetIds] at h2
          split at h2
          · cases h2
          · rename_i i hi
            split at h2
            · cases h2
            · rename_i j hj
              cases h2
              exact ⟨_, .inl (.pushTo a b i j (h.find_iff hi) (h.find_iff hj)), fun _ _ _ _ => rfl⟩
        · cases h1
  · simp only [hp, if_false] at h1
    rcases splitColon_cases new with h3 | ⟨a, b, h3, rfl⟩
    · rw [h3] at h1
      dsimp only at h1
      split at h1
      · cases h1
      · simp only [Option.isSome_none, Bool.false_eq_true, if_false] at h1
        cases h1
        simp only [RulesObj.targetIds] at h2
        split at h2
        · cases h2
        · rename_i i hi
          cases h2
          exact ⟨_, .inl (.goto new i (h.find_iff hi)), fun _ _ _ _ => rfl⟩
    · rw [h3] at h1
      dsimp only at h1
      split at h1
      · cases h1
      · simp only [Option.isSome_some, if_true] at h1
        cases h1

end Lexertl.InStates

namespace Lexertl.Props
open Spec InStates

/-- C32.  A rule for named states is taken only if the text for its states is a list of names of
states, `*` or (see `C32_loose_names`) such a list with a comma after it or empty, and its target is one of `.`, `NAME`, `>NAME`,
`>NAME:BACK` with names of states, or starts with `<`.  It is then appended to the states
meant, once for each time a state is named, with the state changes that the target means. -/
theorem C32_state_texts {E : TokEnv} {tr : Traits} {flags : ReFlags} {cs : List Call} {o o' : RulesObj}
    (h : Calls E tr (RulesObj.new tr flags) cs o) (hn : o.states.length ≤ tr.npos) {names : List (List Nat)}
    (hnames : names.length = o.states.length ∧ ∀ j < o.states.length, names[j]? = o.stateName tr j)
    {curr regex new : List Nat} {id : Option Nat} {userId : Nat} (hp : o.pushNamed E tr curr regex id new userId = (o', .ok ())) :
    ∃ g is, (Leads tr.npos names new g ∨ (new.head? = some 60 ∧ g = fun _ => (tr.npos, tr.npos, true))) ∧
      (Places names curr is ∨ (∃ w, curr = w ++ [44] ∧ NameList names w is) ∨ (curr = [] ∧ is = [])) ∧
      (is = [] ∨ ∃ tss, tokenise E o.flags o.macros false regex = .ok tss ∧
        ∀ i : Nat, o'.states[i]? = o.states[i]?.map
          (· ++ (List.replicate (is.count i) (tss.map fun ts => ⟨ts, id.getD 0, userId, (g i).1, (g i).2.1, (g i).2.2⟩)).flatten)) := by
  have hs := calls_statesOk h (new_statesOk tr flags).1
  have hN : Named tr o names := by
    refine ⟨hs, List.ext_getElem? fun j => ?_, by omega⟩
    by_cases hj : j < o.states.length
    · rw [hnames.2 j hj, stateName_eq j (by omega)]
    · rw [List.getElem?_eq_none (by have := hs.states; omega), List.getElem?_eq_none (by omega)]
  obtain ⟨_, _, t, ids, currs, h1, h2, h3, h4, _⟩ := C32_push_named_appends hp
  obtain ⟨g, g1, g2⟩ := hN.leads_only h1 h2
  refine ⟨g, currs, g1, ?_, ?_⟩
  · unfold RulesObj.currStates at h3
    split at h3
    · rename_i e
      have hm : o.statemap.length = names.length := by rw [hs.map, numbered_length, hN.names]
      rw [hm, toId_small hN.small] at h3
      cases h3
      rw [e]
      exact .inl .all
    · rcases hN.list_only _ curr currs (Nat.le_refl _) h3 with hl | hl | hl
      · exact .inr (.inr hl)
      · exact .inl (.list _ _ hl)
      · exact .inr (.inl hl)
  · rcases h4 with h4 | ⟨tss, h5, h6⟩
    · exact .inl h4
    · refine .inr ⟨tss, h5, fun i => ?_⟩
      rw [h6 i, show RulesObj.mkRule tr t ids i (id.getD 0) userId = _ from funext fun ts => g2 i _ _ ts]

/-- The rules object has the states `INITIAL` and `STR`; a rule for both of them, and rules that
are refused: an exit state without `>`, an unknown exit state, a lone comma. -/
example : Ex.obj.states.length = 2 ∧ Ex.obj.stateName Ex.tr 0 = some (chars "INITIAL") ∧ Ex.obj.stateName Ex.tr 1 = some (chars "STR") ∧
    (Ex.obj.pushNamed Ex.env Ex.tr (chars "STR,INITIAL") (chars "a") (some 5) (chars ">STR:INITIAL") 0).2.isOk = true ∧
    (Ex.obj.pushNamed Ex.env Ex.tr (chars "STR,INITIAL") (chars "a") (some 5) (chars "STR:INITIAL") 0).2.isOk = false ∧
    (Ex.obj.pushNamed Ex.env Ex.tr (chars "STR") (chars "a") (some 5) (chars ">STR:NONE") 0).2.isOk = false ∧
    (Ex.obj.pushNamed Ex.env Ex.tr (chars ",") (chars "a") (some 5) (chars ".") 0).2.isOk = false := by
  decide +kernel

end Lexertl.Props
