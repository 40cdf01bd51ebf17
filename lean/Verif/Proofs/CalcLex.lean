import Verif.Proofs.CalcGrammar
import Verif.Proofs.Wc
import Verif.Props.StateTexts

/-
The calculator: its rules and what they match, and the loop on a text.
-/
namespace Lexertl.Calc
open Spec Spec.Calc Reading Props

/-! ### The rules -/

/-- A rule: one character of a set, or several. -/
structure Entry where
  set : List (Nat × Nat)
  many : Bool
  id : Nat
  uid : Nat
  next : Nat
  push : Nat
  pop : Bool
  deriving DecidableEq

def Entry.re (e : Entry) : Re := if e.many then .plus (.chars e.set) false else .chars e.set

def Entry.rule (e : Entry) : SRule := ruleOf e.re e.id e.uid e.next e.push e.pop

def digitSet : List (Nat × Nat) := [(48, 57)]
def opSet : List (Nat × Nat) := [(37, 37), (42, 43), (45, 45), (47, 47)]
def spaceSet : List (Nat × Nat) := [(9, 13), (32, 32)]

def table : List (List Entry) :=
  [[⟨[(45, 45)], false, 1, 100, 1, 65535, false⟩, ⟨digitSet, true, 2, 101, 2, 65535, false⟩, ⟨[(40, 40)], false, 4, 65535, 3, 2, false⟩,
    ⟨spaceSet, true, 65534, 108, 0, 65535, false⟩],
   [⟨digitSet, true, 2, 101, 2, 65535, false⟩, ⟨[(40, 40)], false, 4, 65535, 3, 2, false⟩, ⟨spaceSet, true, 65534, 108, 1, 65535, false⟩],
   [⟨opSet, false, 3, 102, 0, 65535, false⟩, ⟨spaceSet, true, 65534, 108, 2, 65535, false⟩],
   [⟨[(40, 40)], false, 4, 103, 3, 5, false⟩, ⟨[(45, 45)], false, 1, 104, 4, 65535, false⟩, ⟨digitSet, true, 2, 105, 5, 65535, false⟩,
    ⟨spaceSet, true, 65534, 108, 3, 65535, false⟩],
   [⟨[(40, 40)], false, 4, 103, 3, 5, false⟩, ⟨digitSet, true, 2, 105, 5, 65535, false⟩, ⟨spaceSet, true, 65534, 108, 4, 65535, false⟩],
   [⟨opSet, false, 3, 106, 3, 65535, false⟩, ⟨[(41, 41)], false, 5, 107, 65535, 65535, true⟩, ⟨spaceSet, true, 65534, 108, 5, 65535, false⟩]]

def xss : List (List SRule) := table.map (·.map Entry.rule)

def names : List (List Nat) := [chars "INITIAL", chars "VALUE", chars "OPERATOR", chars "SUB_INITIAL", chars "SUB_VALUE", chars "SUB_OPERATOR"]

def calls : List Call :=
  [.pushState (chars "VALUE"), .pushState (chars "OPERATOR"), .pushState (chars "SUB_INITIAL"), .pushState (chars "SUB_VALUE"),
   .pushState (chars "SUB_OPERATOR"),
   .pushIn (chars "INITIAL") (chars "-") (some 1) (chars "VALUE") 100,
   .pushIn (chars "INITIAL,VALUE") (chars "\\d+") (some 2) (chars "OPERATOR") 101,
   .pushIn (chars "OPERATOR") (chars "[-+*/%]") (some 3) (chars "INITIAL") 102,
   .pushIn (chars "INITIAL,VALUE") (chars "\\(") (some 4) (chars ">SUB_INITIAL:OPERATOR") 65535,
   .pushIn (chars "SUB_INITIAL,SUB_VALUE") (chars "\\(") (some 4) (chars ">SUB_INITIAL:SUB_OPERATOR") 103,
   .pushIn (chars "SUB_INITIAL") (chars "-") (some 1) (chars "SUB_VALUE") 104,
   .pushIn (chars "SUB_INITIAL,SUB_VALUE") (chars "\\d+") (some 2) (chars "SUB_OPERATOR") 105,
   .pushIn (chars "SUB_OPERATOR") (chars "[-+*/%]") (some 3) (chars "SUB_INITIAL") 106,
   .pushIn (chars "SUB_OPERATOR") (chars "\\)") (some 5) (chars "<") 107,
   .pushIn (chars "*") (chars "\\s+") (some 65534) (chars ".") 108]

theorem isSet_digit : IsSet digitSet (Closed Ex.env false Digit) := by
  refine ⟨⟨by decide, by decide⟩, fun c => ?_⟩
  simp [Closed, Mem, digitSet, Digit]

theorem isSet_space : IsSet spaceSet (Closed Ex.env false IsSpace) := by
  refine ⟨⟨by decide, by decide⟩, fun c => ?_⟩
  simp only [Closed, Mem, spaceSet, IsSpace, List.mem_cons, List.not_mem_nil, or_false, exists_eq_or_imp, exists_eq_left, Bool.false_eq_true,
    false_and]
  omega

theorem means_many {v : List Nat} {S : Nat → Prop} {t : List (Nat × Nat)} (h : AtomText Ex.env {} false true v S [43]) (ht : IsSet t S) :
    Means Ex.env [] {} (v ++ [43]) (.plus (.chars t) false) :=
  ⟨[.chars t, .rep 1 none false], .atom true {} [] false v S t [43] _ h ht
      (.rep false {} [] [43] 1 none [] _ (by decide) (by decide) (.done _ _)),
    .alt1 _ _ (.seq1 _ _ (.rep [.chars t] (.chars t) 1 none false (.set _ _ (.chars _))))⟩

theorem means_number : Means Ex.env [] {} (chars "\\d+") (.plus (.chars digitSet) false) :=
  means_many (.short false true 100 _ [43] .digit ⟨48, .inl (by decide)⟩) isSet_digit

theorem means_space : Means Ex.env [] {} (chars "\\s+") (.plus (.chars spaceSet) false) :=
  means_many (.short false true 115 _ [43] .space ⟨32, .inl (by decide)⟩) isSet_space

theorem means_minus : Means Ex.env [] {} (chars "-") (.chars [(45, 45)]) :=
  atom_means (.plain _ _ _ (by decide) (by decide)) (Ex.isSet_chr 45)

theorem means_opn : Means Ex.env [] {} (chars "\\(") (.chars [(40, 40)]) :=
  atom_means (.esc false true [40] 40 [] (.self 40 [] (by decide) (by decide) (by decide))) (Ex.isSet_chr 40)

theorem means_cls : Means Ex.env [] {} (chars "\\)") (.chars [(41, 41)]) :=
  atom_means (.esc false true [41] 41 [] (.self 41 [] (by decide) (by decide) (by decide))) (Ex.isSet_chr 41)

theorem means_op : Means Ex.env [] {} (chars "[-+*/%]") (.chars opSet) := by
  refine atom_means (S := fun c => Closed Ex.env false (· = 45) c ∨ Closed Ex.env false (· = 43) c ∨ Closed Ex.env false (· = 42) c ∨
      Closed Ex.env false (· = 47) c ∨ Closed Ex.env false (· = 37) c)
    (.set true [45, 43, 42, 47, 37, 93] _ [] (.pos _ _ (by decide) (.more true [45] _ [43, 42, 47, 37, 93] _ (.inl rfl)
    (.char [45] 45 _ (.self 45 _ (by decide) (by decide)) (by decide)) (.more false [43] _ [42, 47, 37, 93] _ (.inr (by decide))
    (.char [43] 43 _ (.self 43 _ (by decide) (by decide)) (by decide)) (.more false [42] _ [47, 37, 93] _ (.inr (by decide))
    (.char [42] 42 _ (.self 42 _ (by decide) (by decide)) (by decide)) (.more false [47] _ [37, 93] _ (.inr (by decide))
    (.char [47] 47 _ (.self 47 _ (by decide) (by decide)) (by decide)) (.last false [37] _ (.inr (by decide))
    (.char [37] 37 _ (.self 37 _ (by decide) (by decide)) (by decide))))))) ⟨45, .inl (.inl rfl)⟩)) ⟨⟨by decide, by decide⟩, fun c => ?_⟩
  simp only [Mem, Closed, opSet, List.mem_cons, List.not_mem_nil, or_false, exists_eq_or_imp, exists_eq_left, Bool.false_eq_true, false_and]
  omega

theorem states_program : StateProgram Ex.env Ex.tr.npos {} (calls.take 5) names [] [[], [], [], [], [], []] :=
  .state (calls.take 4) (names.take 5) _ _ _
    (.state (calls.take 3) (names.take 4) _ _ _
      (.state (calls.take 2) (names.take 3) _ _ _
        (.state (calls.take 1) (names.take 2) _ _ _
          (.state [] _ _ _ _ .nil (by decide) (by decide) (by decide))
          (by decide) (by decide) (by decide))
        (by decide) (by decide) (by decide))
      (by decide) (by decide) (by decide))
    (by decide) (by decide) (by decide)

theorem program : StateProgram Ex.env Ex.tr.npos {} calls names [] xss :=
  .ruleIn (calls.take 14) _ _ _ _ [0, 1, 2, 3, 4, 5] _ _ (some 65534) _ _ _
   (.ruleIn (calls.take 13) _ _ _ _ [5] _ _ (some 5) _ _ _
    (.ruleIn (calls.take 12) _ _ _ _ [5] _ _ (some 3) _ _ _
     (.ruleIn (calls.take 11) _ _ _ _ [3, 4] _ _ (some 2) _ _ _
      (.ruleIn (calls.take 10) _ _ _ _ [3] _ _ (some 1) _ _ _
       (.ruleIn (calls.take 9) _ _ _ _ [3, 4] _ _ (some 4) _ _ _
        (.ruleIn (calls.take 8) _ _ _ _ [0, 1] _ _ (some 4) _ _ _
         (.ruleIn (calls.take 7) _ _ _ _ [2] _ _ (some 3) _ _ _
          (.ruleIn (calls.take 6) _ _ _ _ [0, 1] _ _ (some 2) _ _ _
           (.ruleIn (calls.take 5) _ _ _ _ [0] _ _ (some 1) _ _ _ states_program
             (.list _ _ (.one _ 0 rfl)) (by unfold TextOk; decide) means_minus rfl (by decide) (by decide) (.goto _ 1 rfl))
           (.list _ _ (.more (chars "INITIAL") 0 (chars "VALUE") [1] rfl (.one _ 1 rfl))) (by unfold TextOk; decide) means_number rfl
            (by decide) (by decide) (.goto _ 2 rfl))
          (.list _ _ (.one _ 2 rfl)) (by unfold TextOk; decide) means_op rfl (by decide) (by decide) (.goto _ 0 rfl))
         (.list _ _ (.more (chars "INITIAL") 0 (chars "VALUE") [1] rfl (.one _ 1 rfl))) (by unfold TextOk; decide) means_opn rfl
          (by decide) (by decide) (.pushTo (chars "SUB_INITIAL") (chars "OPERATOR") 3 2 rfl rfl))
        (.list _ _ (.more (chars "SUB_INITIAL") 3 (chars "SUB_VALUE") [4] rfl (.one _ 4 rfl))) (by unfold TextOk; decide) means_opn rfl
         (by decide) (by decide) (.pushTo (chars "SUB_INITIAL") (chars "SUB_OPERATOR") 3 5 rfl rfl))
       (.list _ _ (.one _ 3 rfl)) (by unfold TextOk; decide) means_minus rfl (by decide) (by decide) (.goto _ 4 rfl))
      (.list _ _ (.more (chars "SUB_INITIAL") 3 (chars "SUB_VALUE") [4] rfl (.one _ 4 rfl))) (by unfold TextOk; decide) means_number rfl
       (by decide) (by decide) (.goto _ 5 rfl))
     (.list _ _ (.one _ 5 rfl)) (by unfold TextOk; decide) means_op rfl (by decide) (by decide) (.goto _ 3 rfl))
    (.list _ _ (.one _ 5 rfl)) (by unfold TextOk; decide) means_cls rfl (by decide) (by decide) .pop)
   .all (by unfold TextOk; decide) means_space rfl (by decide) (by decide) .stay

theorem machine : (buildTemp Ex.tr (fun i => i) (Ex.runs calls Ex.obj0).rules).isOk = true := by decide +kernel

/-! ### The object after the calls -/

theorem done_named {E : TokEnv} {tr : Traits} {o o' : RulesObj} {c w n : List Nat} {i : Option Nat} {u : Nat}
    (h : (Call.pushIn c w i n u).run E tr o = (o', .ok ())) : done (o.pushNamed E tr c w i n u) = .ok o' := by
  simp only [Call.run] at h
  rw [h]
  rfl

theorem done_state {E : TokEnv} {tr : Traits} {o o' : RulesObj} {n : List Nat}
    (h : (Call.pushState n).run E tr o = (o', .ok ())) : done (o.pushState tr n) = .ok o' := by
  simp only [Call.run, Prod.mk.injEq] at h
  obtain ⟨h1, h2⟩ := h
  unfold done
  cases h3 : (o.pushState tr n).2 with
  | ok a => rw [← h1]; rfl
  | error e => rw [h3] at h2; cases h2

theorem runs_allOk {cs : List Call} {o o' : RulesObj} (h : AllOk Ex.env Ex.tr o cs o') : Ex.runs cs o = o' := by
  induction h with
  | nil => rfl
  | snoc cs o1 c o2 _ h ih =>
    unfold Ex.runs at ih ⊢
    rw [List.foldl_append, ih]
    simp only [List.foldl, h]

theorem rules_eq {o : RulesObj} (h : AllOk Ex.env Ex.tr (RulesObj.new Ex.tr {}) calls o) :
    rules Ex.env Ex.tr = .ok o ∧ o = Ex.runs calls Ex.obj0 := by
  refine ⟨?_, (runs_allOk h).symm⟩
  obtain ⟨o14, h, g15⟩ := Wc.allOk_snoc (cs := calls.take 14) h
  obtain ⟨o13, h, g14⟩ := Wc.allOk_snoc (cs := calls.take 13) h
  obtain ⟨o12, h, g13⟩ := Wc.allOk_snoc (cs := calls.take 12) h
  obtain ⟨o11, h, g12⟩ := Wc.allOk_snoc (cs := calls.take 11) h
  obtain ⟨o10, h, g11⟩ := Wc.allOk_snoc (cs := calls.take 10) h
  obtain ⟨o9, h, g10⟩ := Wc.allOk_snoc (cs := calls.take 9) h
  obtain ⟨o8, h, g9⟩ := Wc.allOk_snoc (cs := calls.take 8) h
  obtain ⟨o7, h, g8⟩ := Wc.allOk_snoc (cs := calls.take 7) h
  obtain ⟨o6, h, g7⟩ := Wc.allOk_snoc (cs := calls.take 6) h
  obtain ⟨o5, h, g6⟩ := Wc.allOk_snoc (cs := calls.take 5) h
  obtain ⟨o4, h, g5⟩ := Wc.allOk_snoc (cs := calls.take 4) h
  obtain ⟨o3, h, g4⟩ := Wc.allOk_snoc (cs := calls.take 3) h
  obtain ⟨o2, h, g3⟩ := Wc.allOk_snoc (cs := calls.take 2) h
  obtain ⟨o1, h, g2⟩ := Wc.allOk_snoc (cs := calls.take 1) h
  obtain ⟨o0, h, g1⟩ := Wc.allOk_snoc (cs := []) h
  have := allOk_nil h
  subst this
  unfold rules
  rw [done_state g1]; dsimp only [bind, Except.bind]
  rw [done_state g2]; dsimp only
  rw [done_state g3]; dsimp only
  rw [done_state g4]; dsimp only
  rw [done_state g5]; dsimp only
  rw [done_named g6]; dsimp only
  rw [done_named g7]; dsimp only
  rw [done_named g8]; dsimp only
  rw [show Ex.tr.npos = 65535 from rfl, done_named g9]; dsimp only
  rw [done_named g10]; dsimp only
  rw [done_named g11]; dsimp only
  rw [done_named g12]; dsimp only
  rw [done_named g13]; dsimp only
  rw [done_named g14]; dsimp only
  exact done_named g15

/-! ### What is matched -/

/-- The character is in the set. -/
def inSet (c : Nat) (t : List (Nat × Nat)) : Bool := t.any fun x => x.1 ≤ c && c ≤ x.2

theorem inSet_iff {c : Nat} {t : List (Nat × Nat)} : inSet c t = true ↔ Mem c t := by
  simp [inSet, Mem]

theorem re_matches (e : Entry) (l : List Nat) :
    e.re.Matches (l.map .ch) ↔ l ≠ [] ∧ (∀ c ∈ l, Mem c e.set) ∧ (e.many = false → l.length = 1) := by
  unfold Entry.re
  split
  · rename_i h
    rw [Wc.plus_chars, h]
    simp
  · rename_i h
    rw [chars_matches]
    have h : e.many = false := by simpa using h
    constructor
    · rintro ⟨c, rfl, h2⟩
      exact ⟨by simp, fun d hd => by rw [List.mem_singleton.1 hd]; exact h2, fun _ => rfl⟩
    · rintro ⟨_, h2, h3⟩
      obtain ⟨c, rfl⟩ := List.length_eq_one_iff.1 (h3 h)
      exact ⟨c, rfl, h2 c (by simp)⟩

/-- Length of the text that the rule takes. -/
def Entry.size (e : Entry) (l : List Nat) : Nat := if e.many then (l.takeWhile (inSet · e.set)).length else 1

/-- The number of the rule that takes texts starting with `c`. -/
def ix (es : List Entry) (c : Nat) : Option Nat := es.findIdx? (fun e => inSet c e.set)

/-- No two rules of a lexer state take texts starting with the same character. -/
def Apart (es : List Entry) : Prop := ∀ (c i j : Nat) (e e' : Entry), es[i]? = some e → es[j]? = some e' → inSet c e.set = true →
  inSet c e'.set = true → i = j

theorem line_iff {b : Bool} {e : Entry} {w : List Sym} : LineMatch b (some e.re) w ↔ e.re.Matches w := by
  rw [line_noBol (show NoBol (some e.re) from by show e.re.noBol = true; unfold Entry.re; split <;> rfl)]
  rfl

theorem best_entry {es : List Entry} (ha : Apart es) {inp : List Nat} {p c : Nat} {w : List Nat} (hd : inp.drop p = c :: w) {b : Bool}
    {j : Nat} {e : Entry} (hj : es[j]? = some e) (hc : inSet c e.set = true) :
    Best (LineMatch b) ((es.map Entry.rule).map (·.2)) inp p inp.length (p + e.size (c :: w)) j ∧ 0 < e.size (c :: w) := by
  have hlen : p + (w.length + 1) = inp.length := by
    have := congrArg List.length hd
    simp only [List.length_drop, List.length_cons] at this
    omega
  have hsz : 0 < e.size (c :: w) ∧ e.size (c :: w) ≤ w.length + 1 := by
    unfold Entry.size
    split
    · refine ⟨?_, ?_⟩
      · rw [List.takeWhile_cons, if_pos hc]; simp
      · exact (List.takeWhile_sublist _).length_le
    · omega
  have hget : ∀ (i : Nat) (x : Option Re), ((es.map Entry.rule).map (·.2))[i]? = some x → ∃ e', es[i]? = some e' ∧ x = some e'.re := by
    intro i x hx
    simp only [List.getElem?_map, Option.map_eq_some_iff] at hx
    obtain ⟨r, ⟨e', h1, rfl⟩, rfl⟩ := hx
    exact ⟨e', h1, rfl⟩
  have htext : ∀ n, text inp p (p + n) = ((c :: w).take n).map .ch := by
    intro n
    rw [text, hd, Nat.add_sub_cancel_left]
  have hhead : ∀ n, 0 < n → c ∈ (c :: w).take n := by
    intro n hn
    obtain ⟨n, rfl⟩ : ∃ m, n = m + 1 := ⟨n - 1, by omega⟩
    simp
  have hother : ∀ (i n : Nat) (e' : Entry), 0 < n → es[i]? = some e' → e'.re.Matches (((c :: w).take n).map .ch) → i = j := by
    intro i n e' hn hi hm
    exact ha c i j e' e hi hj (inSet_iff.2 (((re_matches e' _).1 hm).2.1 c (hhead n hn))) hc
  refine ⟨⟨by omega, by omega, ⟨some e.re, by simp [hj, Entry.rule, ruleOf], ?_⟩, ?_, ?_⟩, hsz.1⟩
  · rw [line_iff, htext, re_matches]
    refine ⟨?_, ?_, ?_⟩
    · intro h
      have := hhead _ hsz.1
      rw [h] at this
      cases this
    · unfold Entry.size
      split
      · rw [Wc.take_takeWhile]
        intro d hd'
        exact inSet_iff.1 (List.all_eq_true.1 (List.all_takeWhile (l := c :: w)) d hd')
      · intro d hd'
        simp only [List.take_succ_cons, List.take_zero, List.mem_singleton] at hd'
        rw [hd']
        exact inSet_iff.1 hc
    · intro hm
      rw [Entry.size, hm]
      rfl
  · intro i x hi hx
    obtain ⟨e', h1, rfl⟩ := hget i x hx
    rw [line_iff, htext]
    intro hm
    have := hother i _ e' hsz.1 h1 hm
    omega
  · intro k' h1 h2 x hx
    obtain ⟨i, hi⟩ := List.getElem?_of_mem hx
    obtain ⟨e', h3, rfl⟩ := hget i x hi
    obtain ⟨m, rfl⟩ : ∃ m, k' = p + m := ⟨k' - p, by omega⟩
    rw [line_iff, htext]
    intro hm
    have := hother i m e' (by omega) h3 hm
    subst this
    rw [hj] at h3
    cases h3
    obtain ⟨_, g1, g2⟩ := (re_matches e _).1 hm
    unfold Entry.size at h1
    split at h1
    · have := Wc.take_all (q := fun c => inSet c e.set) (c :: w) m (by simp only [List.length_cons]; omega) (fun d hd => inSet_iff.2 (g1 d hd))
      omega
    · rename_i hmany
      have := g2 (by simpa using hmany)
      simp only [List.length_take, List.length_cons] at this
      omega

theorem none_entry {es : List Entry} {inp : List Nat} {p c : Nat} {w : List Nat} (hd : inp.drop p = c :: w) {b : Bool}
    (h : ∀ e ∈ es, inSet c e.set = false) (q : Nat) : NoMatch (LineMatch b) ((es.map Entry.rule).map (·.2)) inp p q := by
  intro k hk _ x hx
  simp only [List.map_map, List.mem_map] at hx
  obtain ⟨e, he, rfl⟩ := hx
  show ¬ LineMatch b (some e.re) _
  rw [line_iff, text, hd, re_matches]
  rintro ⟨_, h1, _⟩
  have := inSet_iff.2 (h1 c (by
    obtain ⟨n, hn⟩ : ∃ m, k - p = m + 1 := ⟨k - p - 1, by omega⟩
    rw [hn]
    simp))
  rw [h e he] at this
  cases this

theorem noEmpty_entries (es : List Entry) : NoEmpty ((es.map Entry.rule).map (·.2)) := by
  intro x hx
  simp only [List.map_map, List.mem_map] at hx
  obtain ⟨e, he, rfl⟩ := hx
  show ¬ e.re.Matches ([].map .ch)
  rw [re_matches]
  exact fun h => h.1 rfl

theorem apart : ∀ es ∈ table, Apart es := by
  have disj : ∀ es ∈ table, ∀ i < 4, ∀ j < 4, (es[i]?.all fun e => es[j]?.all fun e' => i == j ||
      e.set.all fun x => e'.set.all fun y => decide (x.2 < y.1 ∨ y.2 < x.1)) = true := by decide +kernel
  have len : ∀ es ∈ table, es.length ≤ 4 := by decide
  intro es hes c i j e e' hi hj h1 h2
  apply Classical.byContradiction
  intro hne
  have hi' := (List.getElem?_eq_some_iff.1 hi).1
  have hj' := (List.getElem?_eq_some_iff.1 hj).1
  have hl := len es hes
  obtain ⟨x, hx, hx'⟩ := inSet_iff.1 h1
  obtain ⟨y, hy, hy'⟩ := inSet_iff.1 h2
  have := disj es hes i (by omega) j (by omega)
  rw [hi, hj] at this
  simp only [Option.all_some, Bool.or_eq_true, beq_iff_eq, List.all_eq_true, decide_eq_true_eq] at this
  rcases this with h | h
  · exact hne h
  · have := h x hx y hy
    omega

/-! ### One call of `lookup` -/

/-- Number of the rule and rule that take texts starting with `c` in lexer state `st`. -/
def info (st c : Nat) : Option (Nat × Entry) :=
  table[st]?.bind fun es => (ix es c).bind fun j => es[j]?.map fun e => (j, e)

theorem info_some {st c j : Nat} {e : Entry} (h : info st c = some (j, e)) :
    ∃ es, table[st]? = some es ∧ es[j]? = some e ∧ inSet c e.set = true := by
  unfold info at h
  simp only [Option.bind_eq_some_iff, Option.map_eq_some_iff] at h
  obtain ⟨es, h1, j', h2, e', h3, h4⟩ := h
  cases h4
  obtain ⟨hlt, h5, _⟩ := List.findIdx?_eq_some_iff_getElem.1 h2
  rw [List.getElem?_eq_getElem hlt] at h3
  cases h3
  exact ⟨es, h1, List.getElem?_eq_getElem hlt, h5⟩

theorem info_none {st c : Nat} {es : List Entry} (hes : table[st]? = some es) (h : info st c = none) : ∀ e ∈ es, inSet c e.set = false := by
  unfold info at h
  rw [hes] at h
  simp only [Option.bind_some] at h
  cases hx : ix es c with
  | none => exact List.findIdx?_eq_none_iff.1 hx
  | some j =>
    rw [hx] at h
    obtain ⟨hlt, _⟩ := List.findIdx?_eq_some_iff_getElem.1 hx
    rw [Option.bind_some, List.getElem?_eq_getElem hlt] at h
    cases h

abbrev lexEnv (inp : List Nat) : LexEnv := ⟨xss, 65535, 0, flags, inp⟩

/-- The rule that takes a text starting with `c` is chosen. -/
theorem chosen {inp : List Nat} {r : Results} {p c : Nat} {w : List Nat} (hd : inp.drop p = c :: w) (he : r.eoi = inp.length)
    {j : Nat} {e : Entry} (h : info r.state c = some (j, e)) :
    0 < e.size (c :: w) ∧ ∃ b, (lexEnv inp).Chosen r p e.rule (p + e.size (c :: w)) e.next b := by
  obtain ⟨es, h1, h2, h3⟩ := info_some h
  have ha := apart es (List.mem_of_getElem? h1)
  obtain ⟨hb, hs⟩ := best_entry ha hd (b := (lexEnv inp).atLine r) h2 h3
  rw [← he] at hb
  refine ⟨hs, _, .text (es.map Entry.rule) e.rule _ j ?_ ?_ hb⟩
  · show xss[r.state]? = _
    unfold xss
    rw [List.getElem?_map, h1]
    rfl
  · rw [List.getElem?_map, h2]
    rfl

theorem drop_lt {inp : List Nat} {p c : Nat} {w : List Nat} (hd : inp.drop p = c :: w) : p < inp.length := by
  have := congrArg List.length hd
  simp only [List.length_drop, List.length_cons] at this
  omega

/-- White space. -/
theorem lex_space {inp : List Nat} {r : Results} {p c : Nat} {w : List Nat} (hd : inp.drop p = c :: w) (he : r.eoi = inp.length)
    {j : Nat} {e : Entry} (h : info r.state c = some (j, e)) (h1 : e.id = 65534) (h2 : e.next = r.state) (h3 : e.push = 65535)
    (h4 : e.pop = false) :
    ∃ b, ∀ o, (lexEnv inp).Lex { r with first := p + e.size (c :: w), second := p + e.size (c :: w), bol := b } (p + e.size (c :: w)) o →
      (lexEnv inp).Lex r p o := by
  obtain ⟨_, b, hc⟩ := chosen hd he h
  refine ⟨b, fun o ho => ?_⟩
  have := drop_lt hd
  refine .skip r { r with second := p + e.size (c :: w), bol := b } p e.rule _ _ b o (by omega) hc ?_ h1 ho
  unfold LexEnv.accept
  rw [if_neg (by simp [Entry.rule, ruleOf, h4])]
  simp [Entry.rule, ruleOf, h2, h3, flags]

/-- The lexer stack has no entries of rules that continue a token. -/
def Marked (k : List (Nat × Nat)) : Prop := ∀ e ∈ k, e.2 ≠ 0

/-- A token of a rule that does not pop. -/
theorem lex_token {inp : List Nat} {r : Results} {p c : Nat} {w : List Nat} (hd : inp.drop p = c :: w) (he : r.eoi = inp.length)
    {j : Nat} {e : Entry} (h : info r.state c = some (j, e)) (h1 : e.id ≠ 65534) (h0 : e.id ≠ 0) (h4 : e.pop = false) :
    ∃ r', (lexEnv inp).Lex r p (.ok r') ∧ r'.id = e.id ∧ r'.first = r.first ∧ r'.second = p + e.size (c :: w) ∧ r'.eoi = r.eoi ∧
      r'.state = e.next ∧ r'.stack = if e.push = 65535 then r.stack else (e.push, e.id) :: r.stack := by
  obtain ⟨_, b, hc⟩ := chosen hd he h
  have := drop_lt hd
  have ha : (lexEnv inp).accept e.rule.1 r (p + e.size (c :: w)) e.next b = .ok { r with second := p + e.size (c :: w), bol := b, state := e.next, stack := if e.push = 65535 then r.stack else (e.push, e.id) :: r.stack } := by
    unfold LexEnv.accept
    rw [if_neg (by simp [Entry.rule, ruleOf, h4])]
    simp [Entry.rule, ruleOf, flags]
  refine ⟨_, .token r _ p e.rule _ _ b (by omega) hc ha h1 ?_, rfl, rfl, rfl, rfl, rfl, rfl⟩
  rintro (g | ⟨_, g, _⟩)
  · exact h0 g
  · simp [Entry.rule, ruleOf, h4] at g

/-- A token of a rule that pops. -/
theorem lex_pop {inp : List Nat} {r : Results} {p c : Nat} {w : List Nat} (hd : inp.drop p = c :: w) (he : r.eoi = inp.length)
    {j : Nat} {e : Entry} (h : info r.state c = some (j, e)) (h1 : e.id ≠ 65534) (h0 : e.id ≠ 0) (h4 : e.pop = true)
    {x : Nat × Nat} {k : List (Nat × Nat)} (hk : r.stack = x :: k) (hm : Marked k) :
    ∃ r', (lexEnv inp).Lex r p (.ok r') ∧ r'.id = e.id ∧ r'.first = r.first ∧ r'.second = p + e.size (c :: w) ∧ r'.eoi = r.eoi ∧
      r'.state = x.1 ∧ r'.stack = k := by
  obtain ⟨_, b, hc⟩ := chosen hd he h
  have := drop_lt hd
  refine ⟨_, .token r { r with second := p + e.size (c :: w), stack := k, bol := b, state := x.1 } p e.rule _ _ b (by omega) hc (by
    unfold LexEnv.accept
    rw [if_pos ⟨rfl, h4⟩, hk]
    rfl) h1 ?_, rfl, rfl, rfl, rfl, rfl, rfl⟩
  rintro (g | ⟨_, _, y, st, g1, g2⟩)
  · exact h0 g
  · have g1 : k = y :: st := g1
    exact hm y (by rw [g1]; simp) g2

/-- No rule. -/
theorem lex_none {inp : List Nat} {r : Results} {p c : Nat} {w : List Nat} (hd : inp.drop p = c :: w) (he : r.eoi = inp.length)
    (hst : r.state < 6) (h : info r.state c = none) : ∃ r', (lexEnv inp).Lex r p (.ok r') ∧ r'.id = 65535 := by
  have := drop_lt hd
  have hlt : r.state < table.length := hst
  have hes := List.getElem?_eq_getElem hlt
  have hx : xss[r.state]? = some (table[r.state].map Entry.rule) := by
    unfold xss
    rw [List.getElem?_map, hes]
    rfl
  have hc : inp[p]? = some c := by
    have := congrArg List.head? hd
    rw [List.head?_drop] at this
    exact this
  exact ⟨_, .none r p _ c (by omega) hx (none_entry hd (info_none hes h) _) (noEmpty_entries _) hc, rfl⟩

/-! ### Tokens of a text -/

/-- The token at the front, and its length. -/
def token : List Nat → Option Tk × Nat
  | [] => (none, 0)
  | c :: w =>
    if isDigit c then (some (.num ((c :: w).takeWhile isDigit)), ((c :: w).takeWhile isDigit).length)
    else if c ∈ opChars then (some (.op c), 1)
    else if c = 40 then (some .opn, 1)
    else if c = 41 then (some .cls, 1)
    else (none, 1)

/-- The tokens; `n`: a bound on their number. -/
def scan : Nat → List Nat → List (Option Tk)
  | 0, _ => []
  | n + 1, l =>
    match l.dropWhile isSpace with
    | [] => []
    | c :: w => (token (c :: w)).1 :: scan n ((c :: w).drop (token (c :: w)).2)

theorem token_valid (l : List Nat) : Valid (token l).1 := by
  cases l with
  | nil => trivial
  | cons c w =>
    rw [token]
    by_cases h1 : isDigit c = true
    · rw [if_pos h1]
      refine ⟨?_, ?_⟩
      · rw [List.takeWhile_cons, if_pos h1]; simp
      · intro d hd
        have := List.all_eq_true.1 (List.all_takeWhile (l := c :: w)) d hd
        simpa [isDigit] using this
    rw [if_neg h1]
    by_cases h2 : c ∈ opChars
    · rw [if_pos h2]
      exact h2
    rw [if_neg h2]
    by_cases h3 : c = 40
    · rw [if_pos h3]
      trivial
    rw [if_neg h3]
    split <;> trivial

theorem scan_valid : ∀ (n : Nat) (l : List Nat), ∀ t ∈ scan n l, Valid t
  | 0, _, t, h => by cases h
  | n + 1, l, t, h => by
    rw [scan] at h
    split at h
    · cases h
    · rename_i c w _
      rcases List.mem_cons.1 h with rfl | h
      · exact token_valid _
      · exact scan_valid n _ t h

end Lexertl.Calc
