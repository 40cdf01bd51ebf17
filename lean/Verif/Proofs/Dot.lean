import Verif.Spec.Dot
import Verif.Proofs.Dump
import Verif.Proofs.RulesObj

/-
The text in the DOT language.
-/
namespace Lexertl.Dot
open Spec Dump

/-- The text `t` has the tokens `k`, whatever follows. -/
def Closed (t : List Nat) (k : List DotTok) : Prop := ∀ b, dotTokens (.out []) (t ++ b) = k ++ dotTokens (.out []) b

/-- The text `t` has the tokens `k` if the next character is not part of a word. -/
def Open (t : List Nat) (k : List DotTok) : Prop :=
  ∀ c b, dotWordChar c = false → dotTokens (.out []) (t ++ c :: b) = k ++ dotTokens (.out []) (c :: b)

theorem Closed.append {t u : List Nat} {k l : List DotTok} (h : Closed t k) (h' : Closed u l) : Closed (t ++ u) (k ++ l) := by
  intro b
  rw [List.append_assoc, h, h', List.append_assoc]

theorem Open.closed {t u : List Nat} {k l : List DotTok} {c : Nat} (h : Open t k) (hc : dotWordChar c = false)
    (h' : Closed (c :: u) l) : Closed (t ++ c :: u) (k ++ l) := by
  intro b
  rw [List.append_assoc, List.cons_append, h c _ hc, ← List.cons_append, h', List.append_assoc]

theorem Closed.congr {t t' : List Nat} {k k' : List DotTok} (h : Closed t k) (ht : t' = t) (hk : k' = k) : Closed t' k' := by
  rw [ht, hk]; exact h

theorem closed_nil : Closed [] [] := fun _ => rfl

theorem word_run : ∀ (u w b : List Nat), (∀ c ∈ u, dotWordChar c = true) → dotTokens (.out w) (u ++ b) = dotTokens (.out (w ++ u)) b
  | [], w, b, _ => by simp
  | c :: u, w, b, h => by
    have hc := h c (by simp)
    rw [List.cons_append, dotTokens, if_pos hc, word_run u _ b (fun c hc => h c (by simp [hc]))]
    simp

theorem open_word {u : List Nat} (hu : ∀ c ∈ u, dotWordChar c = true) (hne : u ≠ []) : Open u [.word u] := by
  intro c b hc
  rw [word_run u [] _ hu, List.nil_append]
  simp [dotTokens, hc, dotWord, hne]

theorem str_run : ∀ (u w b : List Nat), (∀ c ∈ u, c ≠ 34) → dotTokens (.str w) (u ++ b) = dotTokens (.str (w ++ u)) b
  | [], w, b, _ => by simp
  | c :: u, w, b, h => by
    have hc := h c (by simp)
    rw [List.cons_append, dotTokens, if_neg hc, str_run u _ b (fun c hc => h c (by simp [hc]))]
    simp

theorem html_run (d : Nat) : ∀ (u w b : List Nat), (∀ c ∈ u, c ≠ 60 ∧ c ≠ 62) → dotTokens (.html d w) (u ++ b) = dotTokens (.html d (w ++ u)) b
  | [], w, b, _ => by simp
  | c :: u, w, b, h => by
    have hc := h c (by simp)
    rw [List.cons_append, dotTokens, if_neg hc.1, if_neg hc.2, html_run d u _ b (fun c hc => h c (by simp [hc]))]
    simp

theorem wordChar_num (n : Nat) : ∀ c ∈ numText 10 n, dotWordChar c = true := by
  intro c hc
  have := (numText_dig (b := 10) (by omega) (by omega) n c hc).1
  unfold IsDig at this
  simp only [dotWordChar, Bool.or_eq_true, Bool.and_eq_true, decide_eq_true_eq, beq_iff_eq]
  omega

theorem open_node (d s : Nat) : Open (nodeId d s) [.word (nodeId d s)] := by
  refine open_word ?_ (by simp [nodeId, chars])
  intro c hc
  simp only [nodeId, List.mem_append] at hc
  rcases hc with ((hc | hc) | hc) | hc
  · have : c ∈ [76] := hc
    simp only [List.mem_cons, List.not_mem_nil, or_false] at this
    subst this; rfl
  · exact wordChar_num _ c hc
  · have : c ∈ [95, 83] := hc
    simp only [List.mem_cons, List.not_mem_nil, or_false] at this
    rcases this with rfl | rfl <;> rfl
  · exact wordChar_num _ c hc

/-- A text in quotes with what stands before and after it. -/
theorem closed_str {u a : List Nat} {k l : List DotTok} (ha : ∀ b, dotTokens (.out []) (a ++ 34 :: b) = k ++ dotTokens (.str []) b)
    (hu : ∀ c ∈ u, c ≠ 34) {z : List Nat} (hz : Closed z l) : Closed (a ++ 34 :: (u ++ 34 :: z)) (k ++ .str u :: l) := by
  intro b
  rw [List.append_assoc, List.cons_append, ha, List.append_assoc, str_run u [] _ hu, List.cons_append, List.nil_append, dotTokens, if_pos rfl, hz]
  simp

theorem spaces : Closed (chars "    ") [] := fun _ => rfl

/-- A node. -/
theorem node_closed (dfa : Nat) (label : List Nat) (hl : ∀ c ∈ label, c ≠ 34) (i : Nat) (s : CState) :
    Closed (dotNode dfa label i s)
      (if i = 0 then nodeStmt (nodeId dfa i) "circle" (some label)
      else if s.endState then nodeStmt (nodeId dfa i) "doublecircle" (some (chars "id = " ++ numText 10 s.id))
      else nodeStmt (nodeId dfa i) "circle" none) := by
  have hn := open_node dfa i
  have hname : dotName dfa i = nodeId dfa i := rfl
  unfold dotNode
  rw [hname]
  by_cases h0 : i = 0
  · simp only [h0, if_true]
    subst h0
    have h1 : Closed (32 :: (chars "[shape = circle, xlabel=" ++ 34 :: (label ++ 34 :: chars "];\n")))
        [.sign 91, dw "shape", .sign 61, dw "circle", .sign 44, dw "xlabel", .sign 61, .str label, .sign 93, .sign 59] :=
      closed_str (a := 32 :: chars "[shape = circle, xlabel=")
        (k := [.sign 91, dw "shape", .sign 61, dw "circle", .sign 44, dw "xlabel", .sign 61]) (fun _ => rfl) hl (l := [.sign 93, .sign 59]) (fun _ => rfl)
    refine (spaces.append (hn.closed (c := 32) rfl h1)).congr ?_ ?_
    · simp only [List.append_assoc]; rfl
    · simp [nodeStmt]
  · simp only [h0, if_false]
    by_cases he : s.endState = true
    · simp only [he, if_true]
      have hl : ∀ c ∈ chars "id = " ++ numText 10 s.id, c ≠ 34 := by
        intro c hc
        rcases List.mem_append.1 hc with hc | hc
        · have : c ∈ [105, 100, 32, 61, 32] := hc
          rintro rfl
          exact absurd this (by decide)
        · have := wordChar_num _ c hc
          rintro rfl
          exact absurd this (by decide)
      have h1 : Closed (32 :: (chars "[shape = doublecircle, xlabel=" ++ 34 :: ((chars "id = " ++ numText 10 s.id) ++ 34 :: chars "];\n")))
          [.sign 91, dw "shape", .sign 61, dw "doublecircle", .sign 44, dw "xlabel", .sign 61, .str (chars "id = " ++ numText 10 s.id), .sign 93, .sign 59] :=
        closed_str (a := 32 :: chars "[shape = doublecircle, xlabel=")
          (k := [.sign 91, dw "shape", .sign 61, dw "doublecircle", .sign 44, dw "xlabel", .sign 61]) (fun _ => rfl) hl (l := [.sign 93, .sign 59]) (fun _ => rfl)
      refine (spaces.append (hn.closed (c := 32) rfl h1)).congr ?_ ?_
      · simp only [List.append_assoc]; rfl
      · simp [nodeStmt]
    · simp only [he]
      have h1 : Closed (32 :: chars "[shape = circle];\n") [.sign 91, dw "shape", .sign 61, dw "circle", .sign 93, .sign 59] := fun _ => rfl
      refine (spaces.append (hn.closed (c := 32) rfl h1)).congr ?_ ?_
      · simp only [List.append_assoc]; rfl
      · simp [nodeStmt]

set_option maxRecDepth 4000 in
theorem closed_html {u : List Nat} (hu : ∀ c ∈ u, c ≠ 60 ∧ c ≠ 62) :
    Closed (chars " [label = <<TABLE BORDER=\"0\" CELLBORDER=\"0\"><TR><TD>" ++ u ++ chars "</TD></TR></TABLE>>];\n")
      [.sign 91, dw "label", .sign 61, .html (labelHtml u), .sign 93, .sign 59] := by
  intro b
  have h1 : ∀ b, dotTokens (.out []) (chars " [label = <<TABLE BORDER=\"0\" CELLBORDER=\"0\"><TR><TD>" ++ b) =
      [.sign 91, dw "label", .sign 61] ++ dotTokens (.html 1 (chars "<TABLE BORDER=\"0\" CELLBORDER=\"0\"><TR><TD>")) b := fun _ => rfl
  have h2 : ∀ w b, dotTokens (.html 1 w) (chars "</TD></TR></TABLE>>];\n" ++ b) =
      [.html (w ++ chars "</TD></TR></TABLE>"), .sign 93, .sign 59] ++ dotTokens (.out []) b := by
    intro w b
    have : chars "</TD></TR></TABLE>>];\n" = [60, 47, 84, 68, 62, 60, 47, 84, 82, 62, 60, 47, 84, 65, 66, 76, 69, 62, 62, 93, 59, 10] := rfl
    rw [this]
    have : chars "</TD></TR></TABLE>" = [60, 47, 84, 68, 62, 60, 47, 84, 82, 62, 60, 47, 84, 65, 66, 76, 69, 62] := rfl
    rw [this]
    simp [dotTokens, dotWordChar, dotWord]
  rw [List.append_assoc, List.append_assoc, h1, html_run 1 u _ _ hu, h2, labelHtml]
  simp

/-- An edge. -/
theorem edge_closed {max dfa i : Nat} {p : Nat × Token} (hu : ∀ c ∈ dotLabel max p.2, c ≠ 60 ∧ c ≠ 62) :
    Closed (dotEdge max dfa i p) (edgeStmt (nodeId dfa i) (nodeId dfa p.1) "label" (.html (labelHtml (dotLabel max p.2)))) := by
  have e : dotEdge max dfa i p = chars "    " ++ (nodeId dfa i ++ 32 :: (chars "-> ")) ++
      (nodeId dfa p.1 ++ (chars " [label = <<TABLE BORDER=\"0\" CELLBORDER=\"0\"><TR><TD>" ++ dotLabel max p.2 ++ chars "</TD></TR></TABLE>>];\n")) := by
    unfold dotEdge
    simp only [List.append_assoc]; rfl
  have h1 := (open_node dfa i).closed (c := 32) (u := chars "-> ") (l := [.sign 45, .sign 62]) rfl (fun _ => rfl)
  have h2 := (open_node dfa p.1).closed (c := 32) rfl (closed_html hu)
  refine ((spaces.append h1).append h2).congr e ?_
  simp [edgeStmt]

theorem closed_flatten {α : Type} {f : α → List Nat} {g : α → List DotTok} : ∀ {l : List α}, (∀ a ∈ l, Closed (f a) (g a)) →
    Closed (l.map f).flatten (l.map g).flatten
  | [], _ => closed_nil
  | a :: l, h => by
    simp only [List.map_cons, List.flatten_cons]
    exact (h a (by simp)).append (closed_flatten fun a ha => h a (by simp [ha]))

theorem closed_idx {α : Type} {f : Nat → α → List Nat} {g : Nat → α → List DotTok} : ∀ {l : List α}, (∀ i, ∀ a ∈ l, Closed (f i a) (g i a)) →
    Closed (l.mapIdx f).flatten (l.mapIdx g).flatten := by
  intro l
  induction l generalizing f g with
  | nil => intro _; exact closed_nil
  | cons a l ih =>
    intro h
    simp only [List.mapIdx_cons, List.flatten_cons]
    exact (h 0 a (by simp)).append (ih fun i x hx => h (i + 1) x (by simp [hx]))

theorem edges_closed {max dfas dfa i : Nat} {s : CState} (hu : ∀ p ∈ s.transitions, ∀ c ∈ dotLabel max p.2, c ≠ 60 ∧ c ≠ 62) :
    Closed (dotEdges max dfas dfa i s)
      ((s.transitions.map fun p => edgeStmt (nodeId dfa i) (nodeId dfa p.1) "label" (.html (labelHtml (dotLabel max p.2)))).flatten ++
      (if dfas > 1 ∧ s.endState = true then edgeStmt (nodeId dfa i) (nodeId s.nextDfa 0) "style" (.str (chars "dashed")) else [])) := by
  unfold dotEdges
  refine Closed.append ?_ ?_
  · rw [List.flatMap_def]
    exact closed_flatten fun p hp => edge_closed (hu p hp)
  · by_cases h : dfas > 1 ∧ s.endState = true
    · simp only [h, and_self, if_true]
      have h1 := (open_node dfa i).closed (c := 32) (u := chars "-> ") (l := [.sign 45, .sign 62]) rfl (fun _ => rfl)
      have h2 := (open_node s.nextDfa 0).closed (c := 32) (u := chars "[style = \"dashed\"];\n")
        (l := [.sign 91, dw "style", .sign 61, .str (chars "dashed"), .sign 93, .sign 59]) rfl (fun _ => rfl)
      refine ((spaces.append h1).append h2).congr ?_ ?_
      · simp only [List.append_assoc]; rfl
      · simp [edgeStmt]
    · simp only [h, if_false]
      exact closed_nil

theorem dfa_closed {max dfas dfa : Nat} {label : List Nat} {d : CDfa} (hl : ∀ c ∈ label, c ≠ 34)
    (hu : ∀ s ∈ d.states, ∀ p ∈ s.transitions, ∀ c ∈ dotLabel max p.2, c ≠ 60 ∧ c ≠ 62) :
    Closed (dotDfa max dfas dfa label d) (nodeStmts dfa label d.states ++ edgeStmts (dotLabel max) dfas dfa d.states) := by
  have h0 : Closed [10] [] := fun _ => rfl
  have h1 := closed_idx (l := d.states) (f := fun i s => dotNode dfa label i s) (fun i s _ => node_closed dfa label hl i s)
  have h2 := closed_idx (l := d.states) (f := fun i s => dotEdges max dfas dfa i s) (fun i s hs => edges_closed (hu s hs))
  exact (((h0.append h1).append h0).append h2).congr rfl (by simp [nodeStmts, edgeStmts])

theorem csm_closed {max : Nat} {tr : Traits} {o : RulesObj} {m : List CDfa} (hl : ∀ i, ∀ c ∈ dotStateLabel tr o i, c ≠ 34)
    (hu : ∀ d ∈ m, ∀ s ∈ d.states, ∀ p ∈ s.transitions, ∀ c ∈ dotLabel max p.2, c ≠ 60 ∧ c ≠ 62) :
    dotTokens (.out []) (dotCsm max tr o m) = graph (dotLabel max) (dotStateLabel tr o) m := by
  have h1 : Closed (chars "digraph DFAs {\n    rankdir = LR;\n") [dw "digraph", dw "DFAs", .sign 123, dw "rankdir", .sign 61, dw "LR", .sign 59] :=
    fun _ => rfl
  have h2 := closed_idx (l := m) (f := fun i d => dotDfa max m.length i (dotStateLabel tr o i) d) (fun i d hd => dfa_closed (hl i) (hu d hd))
  have h3 : Closed (chars "}\n") [.sign 125] := fun _ => rfl
  have := ((h1.append h2).append h3) []
  simpa [graph, dotCsm, show dotTokens (.out []) [] = [] from rfl] using this

/-! ### Names of lexer states -/

/-- All names are valid. -/
def NamesOk (o : RulesObj) : Prop := ∀ w ∈ o.names, validName w = true

theorem pushState_names {tr : Traits} {o : RulesObj} (h : NamesOk o) (name : List Nat) : NamesOk (o.pushState tr name).1 := by
  unfold RulesObj.pushState
  by_cases hv : validName name = false
  · rw [if_pos hv]; exact h
  · rw [if_neg hv]
    have hv' : validName name = true := by simpa using hv
    cases find name o.statemap with
    | some i => exact h
    | none =>
      have key : NamesOk { o with
          statemap := o.statemap ++ [(name, tr.toId o.statemap.length)]
          states := o.states ++ [[]]
          features := o.features ++ [0]
          names := if name ≠ initialName then o.names ++ [name] else o.names } := by
        intro w hw
        dsimp only at hw
        split at hw
        · rcases List.mem_append.1 hw with hw | hw
          · exact h w hw
          · rw [List.mem_singleton.1 hw]; exact hv'
        · exact h w hw
      dsimp only
      split <;> exact key

theorem new_names (tr : Traits) (flags : ReFlags) : NamesOk (RulesObj.new tr flags) :=
  pushState_names (fun w hw => by simp at hw) _

theorem run_names {E : TokEnv} {tr : Traits} {o : RulesObj} (h : NamesOk o) (c : Call) : NamesOk (c.run E tr o).1 := by
  have same : ∀ {o'}, SameNames o o' → NamesOk o' := fun s => by unfold NamesOk; rw [s.names]; exact h
  cases c with
  | pushState name => exact pushState_names h name
  | clear => exact new_names tr _
  | clearState dfa => exact same (clearState_same ..)
  | setFlags f => exact same ⟨rfl, rfl, rfl, rfl⟩
  | insertMacro n r => exact same (insertMacro_same ..)
  | push r i u => exact same (pushInitial_same ..)
  | pushIn a b i c u => exact same (pushNamed_same ..)

theorem calls_names {E : TokEnv} {tr : Traits} {o o' : RulesObj} {cs : List Call} (h : Calls E tr o cs o') (ho : NamesOk o) : NamesOk o' := by
  induction h with
  | nil => exact ho
  | cons o c cs o' _ _ ih => exact ih (run_names ho c)

theorem valid_plain {w : List Nat} (h : validName w = true) : ∀ c ∈ w, c ≠ 34 := by
  intro c hc
  cases w with
  | nil => simp at hc
  | cons a w =>
    simp only [validName, Bool.and_eq_true, List.all_eq_true] at h
    rintro rfl
    rcases List.mem_cons.1 hc with rfl | hc
    · exact absurd h.1 (by decide)
    · exact absurd (h.2 34 hc) (by decide)

theorem label_plain {tr : Traits} {o : RulesObj} (h : NamesOk o) (i : Nat) : ∀ c ∈ dotStateLabel tr o i, c ≠ 34 := by
  unfold dotStateLabel
  split
  · rename_i name hn
    unfold RulesObj.stateName at hn
    split at hn
    · cases hn
      exact valid_plain (by decide)
    · exact valid_plain (h _ (List.mem_of_getElem? hn))
  · intro c hc
    have := wordChar_num _ c hc
    rintro rfl
    exact absurd this (by decide)

/-! ### Labels -/

theorem escape_chars {c x : Nat} (hx : x ∈ dotEscape c) : x = c ∨ x ∉ [38, 60, 62] := by
  have key : ∀ l : List Nat, (l.all fun y => decide (y ∉ [38, 60, 62])) = true → x ∈ l → x ∉ [38, 60, 62] := by
    intro l hl hx
    exact of_decide_eq_true (List.all_eq_true.1 hl x hx)
  have ite : ∀ (p : Prop) [Decidable p] (a b : List Nat), x ∈ (if p then a else b) → x ∈ a ∨ x ∈ b := by
    intro p _ a b h
    by_cases hp : p
    · rw [if_pos hp] at h; exact .inl h
    · rw [if_neg hp] at h; exact .inr h
  unfold dotEscape at hx
  iterate 11
    rcases ite _ _ _ hx with hx | hx
    · exact .inr (key _ (by decide) hx)
  rcases ite _ _ _ hx with hx | hx
  · rcases List.mem_cons.1 hx with rfl | hx
    · exact .inr (by decide)
    · rcases List.mem_cons.1 hx with rfl | hx
      · exact .inr (by decide)
      · have := (numText_dig (b := 16) (by omega) (by omega) c x hx).1
        unfold IsDig at this
        refine .inr ?_
        simp only [List.mem_cons, List.not_mem_nil, or_false]
        omega
  · exact .inl (List.mem_singleton.1 hx)

theorem range_chars {r : Range} (h1 : r.1 ∉ [38, 60, 62]) (h2 : r.2 ∉ [38, 60, 62]) {x : Nat} (hx : x ∈ dotRange r) : x ∉ [38, 60, 62] := by
  unfold dotRange at hx
  simp only [List.mem_append] at hx
  rcases hx with ((hx | hx) | hx) | hx
  · split at hx
    · simp at hx; subst hx; decide
    · simp at hx
  · split at hx
    · simp at hx; subst hx; decide
    · simp at hx
  · rcases escape_chars hx with rfl | h
    · exact h1
    · exact h
  · split at hx
    · rcases List.mem_append.1 hx with hx | hx
      · split at hx
        · simp at hx; subst hx; decide
        · simp at hx
      · rcases escape_chars hx with rfl | h
        · exact h2
        · exact h
    · simp at hx

theorem lists_ok' {max : Nat} {t : Token} (hn : Normal t) (hw : Within max t) :
    Lists max t (if (!Token.any max t && Token.negatable max t) = true then Token.negate max t else t) := by
  unfold Lists
  by_cases h : (!Token.any max t && Token.negatable max t) = true
  · rw [if_pos ((negated_iff max t).1 h), if_pos h]
    exact Token.negate_spec max t hn hw
  · rw [if_neg (fun h' => h ((negated_iff max t).2 h')), if_neg h]

theorem label_chars {max : Nat} {t : Token} (hn : Normal t) (hw : Within max t) (hm : NoMarkup max t) : ∀ x ∈ dotLabel max t, x ∉ [38, 60, 62] := by
  have hu := hm _ (lists_ok' hn hw)
  intro x hx
  unfold dotLabel at hx
  simp only [List.mem_append, List.mem_flatMap] at hx
  rcases hx with ((hx | hx) | ⟨r, hr, hx⟩) | hx
  · simp at hx; subst hx; decide
  · split at hx
    · simp at hx; subst hx; decide
    · simp at hx
  · exact range_chars (hu r hr).1 (hu r hr).2 hx
  · simp at hx; subst hx; decide

theorem escape_plain {c : Nat} (h : PlainInLabel c) : dotEscape c = [c] := by
  obtain ⟨h1, h2, h3⟩ := h
  simp only [List.mem_cons, List.not_mem_nil, or_false, not_or] at h3
  unfold dotEscape
  iterate 11 rw [if_neg (by omega)]
  rw [if_neg (by omega)]

theorem range_plain {r : Range} (h1 : PlainInLabel r.1) (h2 : PlainInLabel r.2) (hle : r.1 ≤ r.2) : dotRange r = rangeText r := by
  have a1 := h1.2.2
  have a2 := h2.2.2
  simp only [List.mem_cons, List.not_mem_nil, or_false, not_or] at a1 a2
  unfold dotRange rangeText
  rw [escape_plain h1, escape_plain h2, if_neg (by omega), if_neg (by omega)]
  by_cases h : r.1 = r.2
  · simp [h]
  · by_cases h' : r.1 + 1 = r.2
    · simp [← h']
    · rw [if_pos h, if_pos (by omega), if_neg h, if_neg h']; rfl

theorem lists_unique {max : Nat} {t u u' : Token} (h : Lists max t u) (h' : Lists max t u') : u = u' := by
  unfold Lists at h h'
  split at h
  · rename_i hc
    rw [if_pos hc] at h'
    exact Token.normal_ext _ _ h.1 h'.1 fun c => (h.2 c).trans (h'.2 c).symm
  · rename_i hc
    rw [if_neg hc] at h'
    rw [h, h']

theorem nodeId_inj {d s d' s' : Nat} (h : nodeId d s = nodeId d' s') : d = d' ∧ s = s' := by
  have hd : ∀ n, ∀ c ∈ numText 10 n, c ≠ 95 := by
    intro n c hc
    have := (numText_dig (b := 10) (by omega) (by omega) n c hc).1
    unfold IsDig at this; omega
  have split : ∀ (a a' b b' : List Nat), (∀ c ∈ a, c ≠ 95) → (∀ c ∈ a', c ≠ 95) → a ++ 95 :: b = a' ++ 95 :: b' → a = a' ∧ b = b' := by
    intro a
    induction a with
    | nil =>
      intro a' b b' _ h' e
      cases a' with
      | nil => simpa using e
      | cons x a' => simp at e; exact absurd e.1.symm (h' x (by simp))
    | cons x a ih =>
      intro a' b b' h h' e
      cases a' with
      | nil => simp at e; exact absurd e.1 (h x (by simp))
      | cons y a' =>
        simp only [List.cons_append, List.cons.injEq] at e
        obtain ⟨e1, e2⟩ := ih a' b b' (fun c hc => h c (by simp [hc])) (fun c hc => h' c (by simp [hc])) e.2
        exact ⟨by rw [e.1, e1], e2⟩
  unfold nodeId at h
  have e : numText 10 d ++ 95 :: (83 :: numText 10 s) = numText 10 d' ++ 95 :: (83 :: numText 10 s') := by
    have := h
    simp only [List.append_assoc] at this
    exact List.append_cancel_left this
  obtain ⟨e1, e2⟩ := split _ _ _ _ (hd d) (hd d') e
  simp only [List.cons.injEq, true_and] at e2
  exact ⟨numText_inj (by omega) (by omega) e1, numText_inj (by omega) (by omega) e2⟩

end Lexertl.Dot
