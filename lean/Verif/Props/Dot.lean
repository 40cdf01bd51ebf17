import Verif.Proofs.Dot
import Verif.Props.Dump
import Verif.Props.Csm

/-
Property C64: the description of a machine in the DOT language.
-/
namespace Lexertl.Props
open Spec

/-- C64.  After any calls of members of the rules, the text written for a char state machine reads, in the DOT language, as the
graph with a node for each state, an edge for each transition and, if there are several lexer states, a dashed edge from each end
state to the next lexer state.
What is missing from the full property: machines with a charset for which `<`, `>` or `&` is written, see `C64_less_than_breaks`. -/
theorem C64_graph_partial {E : TokEnv} {tr : Traits} {flags : ReFlags} {cs : List Call} {o : RulesObj}
    (h : Calls E tr (RulesObj.new tr flags) cs o) {max : Nat} {m : List CDfa}
    (hm : ∀ d ∈ m, ∀ s ∈ d.states, ∀ p ∈ s.transitions, Normal p.2 ∧ Within max p.2 ∧ NoMarkup max p.2) :
    dotTokens (.out []) (dotCsm max tr o m) =
      graph (dotLabel max) (fun i => (o.stateName tr (tr.toId i)).getD (numText 10 i)) m := by
  have hl := Dot.label_plain (tr := tr) (Dot.calls_names h (Dot.new_names tr flags))
  have e : (fun i => (o.stateName tr (tr.toId i)).getD (numText 10 i)) = dotStateLabel tr o := by
    funext i
    unfold dotStateLabel
    cases o.stateName tr (tr.toId i) <;> rfl
  rw [e]
  refine Dot.csm_closed hl ?_
  intro d hd s hs p hp c hc
  obtain ⟨h1, h2, h3⟩ := hm d hd s hs p hp
  have := Dot.label_chars h1 h2 h3 c hc
  simp only [List.mem_cons, List.not_mem_nil, or_false, not_or] at this
  exact this.2

/-- C64.  The same for a state machine: the graph is that of the char state machine with the same states and paths (C37). -/
theorem C64_state_machine_partial {E : TokEnv} {tr : Traits} {flags : ReFlags} {cs : List Call} {o : RulesObj}
    (h : Calls E tr (RulesObj.new tr flags) cs o) {sm : Internals} (hM : Machine tr.npos sm) :
    ∃ csm t, smToCsm tr.npos sm = .ok csm ∧ csm.length = sm.dfa.length ∧ dotSm 255 tr o sm = .ok t ∧
      ((∀ d ∈ csm, ∀ s ∈ d.states, ∀ p ∈ s.transitions, NoMarkup 255 p.2) →
        dotTokens (.out []) t = graph (dotLabel 255) (fun i => (o.stateName tr (tr.toId i)).getD (numText 10 i)) csm) := by
  obtain ⟨csm, h1, h2, h3⟩ := C37_same_machine hM
  refine ⟨csm, dotCsm 255 tr o csm, h1, h2, by rw [dotSm, h1]; rfl, fun hm => C64_graph_partial h ?_⟩
  intro d hd s hs p hp
  obtain ⟨i, hi, rfl⟩ := List.getElem_of_mem hd
  have hi' : i < sm.dfa.length := h2 ▸ hi
  have hl : i < sm.lookup.length := by rw [hM.states.1]; exact hi'
  obtain ⟨_, _, h4, h5, _⟩ := h3 i _ _ _ (List.getElem?_eq_getElem hl) (List.getElem?_eq_getElem hi') (List.getElem?_eq_getElem hi)
  have hn := (h5.trans s hs p.1 p.2 hp).2
  refine ⟨hn, ?_, hm _ hd s hs p hp⟩
  obtain ⟨k, hk, rfl⟩ := List.getElem_of_mem hs
  obtain ⟨row, _, _, h6⟩ := h4 k _ (List.getElem?_eq_getElem hk)
  have hlen := (hM.table i _ _ (List.getElem?_eq_getElem hl) (List.getElem?_eq_getElem hi')).2
  intro r hr
  have hle := hn.1 r hr
  obtain ⟨col, h7, _⟩ := (h6 r.2 p.1).1 ⟨p.2, hp, r, hr, hle, Nat.le_refl _⟩
  have := (List.getElem?_eq_some_iff.1 h7).1
  omega

/-- C64.  Different states have different nodes. -/
theorem C64_nodes (d s d' s' : Nat) : nodeId d s = nodeId d' s' ↔ d = d' ∧ s = s' :=
  ⟨Dot.nodeId_inj, fun ⟨h1, h2⟩ => by rw [h1, h2]⟩

/-- C64.  The label of a transition has the characters between brackets, or, after a `^`, those it does not have, if these are
fewer; where the ends of the ranges stand for themselves. -/
theorem C64_label {max : Nat} {t : Token} (ht : SetOk max t) {u : List (Nat × Nat)} (hu : Lists max t u)
    (hp : ∀ r ∈ u, PlainInLabel r.1 ∧ PlainInLabel r.2) :
    dotLabel max t = [91] ++ (if max < 2 * charCount t ∧ t ≠ [(0, max)] then [94] else []) ++ u.flatMap rangeText ++ [93] := by
  have h1 := Dot.lists_unique (Dump.lists_ok ht) hu
  have hn : Normal u := by
    have := hu
    unfold Lists at this
    split at this
    · exact this.1
    · rw [this]; exact ht.1
  unfold dotLabel
  simp only
  rw [h1]
  congr 1
  congr 1
  · congr 1
    by_cases h : (!Token.any max t && Token.negatable max t) = true
    · rw [if_pos h, if_pos ((Dump.negated_iff max t).1 h)]
    · rw [if_neg h, if_neg (fun h' => h ((Dump.negated_iff max t).2 h'))]
  · simp only [List.flatMap_def]
    congr 1
    apply List.map_congr_left
    intro r hr
    exact Dot.range_plain (hp r hr).1 (hp r hr).2 (hn.1 r hr)

/-- C64.  A transition on `<`: the text of the graph is not finished. -/
theorem C64_less_than_breaks (o : RulesObj) :
    .unfinished ∈ dotTokens (.out []) (dotCsm 255 Ex.tr o (Ex.oneStep [(60, 60)])) := by
  have : dotCsm 255 Ex.tr o (Ex.oneStep [(60, 60)]) = dotCsm 255 Ex.tr Ex.obj0 (Ex.oneStep [(60, 60)]) := by
    simp [dotCsm, Ex.oneStep, dotStateLabel, RulesObj.stateName, Traits.toId]
  rw [this]
  decide +kernel

/-- C64.  Two machines with different transitions and the same text: a newline, and a backslash or an `n`. -/
theorem C64_same_graph (tr : Traits) (o : RulesObj) :
    dotCsm 255 tr o (Ex.oneStep [(10, 10)]) = dotCsm 255 tr o (Ex.oneStep [(92, 92), (110, 110)]) := rfl

/-- C64.  Beginnings and ends of lines are missing from the graph: machines that differ only there have the same text. -/
theorem C64_anchors_missing (max : Nat) (tr : Traits) (o : RulesObj) (m : List CDfa) (bol eol : Nat) :
    dotCsm max tr o (m.map fun d => ⟨bol, d.states.map fun s => { s with eolIndex := eol }⟩) = dotCsm max tr o m := by
  have key : ∀ n i label (d : CDfa), dotDfa max n i label ⟨bol, d.states.map fun s => { s with eolIndex := eol }⟩ = dotDfa max n i label d := by
    intro n i label d
    have h1 : ((d.states.map fun s => ({ s with eolIndex := eol } : CState)).mapIdx fun j s => dotNode i label j s) =
        d.states.mapIdx fun j s => dotNode i label j s := by
      apply List.ext_getElem (by simp)
      intro j _ _
      simp [dotNode]
    have h2 : ((d.states.map fun s => ({ s with eolIndex := eol } : CState)).mapIdx fun j s => dotEdges max n i j s) =
        d.states.mapIdx fun j s => dotEdges max n i j s := by
      apply List.ext_getElem (by simp)
      intro j _ _
      simp [dotEdges]
    unfold dotDfa
    rw [h1, h2]
  unfold dotCsm
  rw [List.length_map]
  congr 3
  apply List.ext_getElem (by simp)
  intro i _ _
  simp only [List.getElem_mapIdx, List.getElem_map, key]

set_option maxRecDepth 20000 in
/-- C64.  A rule that pops is drawn as leading to a lexer state that does not exist. -/
theorem C64_pop_leads_nowhere : Machine Ex.tr.npos Ex.exSafe.sm ∧ Ex.exSafe.sm.dfa.length = 2 ∧
    (dotSm 255 Ex.tr Ex.obj0 Ex.exSafe.sm).toOption.any (fun t =>
      (dotTokens (.out []) t).any fun k => k == .word (nodeId 65535 0)) = true := by
  refine ⟨(C14_built_tables Ex.targetsPar Ex.builtPar).1, ?_, ?_⟩ <;> decide +kernel

/-- What is written. -/
example : dotCsm 255 Ex.tr Ex.obj0 (Ex.oneStep [(48, 57), (97, 98), (122, 122)]) =
    chars ("digraph DFAs {\n    rankdir = LR;\n\n    L0_S0 [shape = circle, xlabel=\"INITIAL\"];\n    L0_S1 [shape = doublecircle, xlabel=\"id = 1\"];\n" ++
      "\n    L0_S0 -> L0_S1 [label = <<TABLE BORDER=\"0\" CELLBORDER=\"0\"><TR><TD>[0-9abz]</TD></TR></TABLE>>];\n}\n") := by
  decide +kernel

/-- The hypotheses hold of machines with charsets listed by what they contain and by what they do not. -/
example : (SetOk 255 [(48, 57), (97, 98), (122, 122)] ∧ NoMarkup 255 [(48, 57), (97, 98), (122, 122)]) ∧
    (SetOk 255 [(0, 33), (35, 255)] ∧ NoMarkup 255 [(0, 33), (35, 255)]) := by
  refine ⟨⟨⟨by decide, by decide, by decide⟩, fun u hu => ?_⟩, ⟨by decide, by decide, by decide⟩, fun u hu => ?_⟩
  · unfold Lists at hu
    rw [if_neg (by decide)] at hu
    rw [hu]; decide
  · unfold Lists at hu
    rw [if_pos (by decide)] at hu
    have : u = [(34, 34)] := Token.normal_ext _ _ hu.1 (by decide) fun c => (hu.2 c).trans (by simp [Mem]; omega)
    rw [this]; decide

/-- And of a rules object after calls. -/
example : Calls Ex.env Ex.tr Ex.obj0 [.pushState (chars "STR")] (Ex.runs [.pushState (chars "STR")] Ex.obj0) ∧
    (fun i => ((Ex.runs [.pushState (chars "STR")] Ex.obj0).stateName Ex.tr (Ex.tr.toId i)).getD (numText 10 i)) 1 = chars "STR" :=
  ⟨.cons _ _ _ _ trivial (.nil _), by decide +kernel⟩

end Lexertl.Props
