import Verif.Proofs.JsonLex
import Verif.Proofs.CalcLoop

/-
The loop of the JSON example, on texts.
-/
namespace Lexertl.Json
open Spec Spec.Json Reading Props

/-! ### Which rule is taken -/

/-- The rules of a lexer state. -/
def row (st : Nat) : List Entry := table[st]?.getD []

/-- Rule `e` takes the text `v` at the front. -/
structure Takes (es : List Entry) (e : Entry) (v w : List Nat) : Prop where
  mem : e ∈ es
  hit : e.form.Texts v
  longest : ∀ e' ∈ es, ∀ v' w', v ++ w = v' ++ w' → e'.form.Texts v' → v'.length ≤ v.length

def Nothing (es : List Entry) (u : List Nat) : Prop := ∀ e ∈ es, ∀ v w, u = v ++ w → ¬ e.form.Texts v

theorem nat_max {P : Nat → Prop} : ∀ b : Nat, (∀ n, P n → n ≤ b) → (∃ n, P n) → ∃ n, P n ∧ ∀ m, P m → m ≤ n
  | 0, hb, ⟨n, h⟩ => ⟨n, h, fun m hm => by have := hb m hm; omega⟩
  | b + 1, hb, h => by
    by_cases hp : P (b + 1)
    · exact ⟨b + 1, hp, hb⟩
    · refine nat_max b (fun n hn => ?_) h
      have := hb n hn
      by_cases e : n = b + 1
      · subst e; exact absurd hn hp
      · omega

theorem takes_or (es : List Entry) (u : List Nat) : (∃ e v w, u = v ++ w ∧ Takes es e v w) ∨ Nothing es u := by
  by_cases h : ∃ n, ∃ e ∈ es, ∃ v w, u = v ++ w ∧ e.form.Texts v ∧ v.length = n
  · left
    obtain ⟨n, ⟨e, he, v, w, h1, h2, h3⟩, hm⟩ := nat_max u.length (fun n ⟨e, _, v, w, h1, _, h3⟩ => by
      rw [h1, List.length_append]; omega) h
    refine ⟨e, v, w, h1, he, h2, fun e' he' v' w' h1' h2' => ?_⟩
    have := hm v'.length ⟨e', he', v', w', by rw [h1, h1'], h2', rfl⟩
    omega
  · right
    intro e he v w h1 h2
    exact h ⟨_, e, he, v, w, h1, h2, rfl⟩

/-- No two rules of a lexer state take texts starting with the same character. -/
def Apart (es : List Entry) : Prop := ∀ (c i j : Nat) (e e' : Entry), es[i]? = some e → es[j]? = some e' → Calc.inSet c e.form.first = true →
  Calc.inSet c e'.form.first = true → i = j

theorem apart (st : Nat) : Apart (row st) := by
  have disj : ∀ es ∈ table, ∀ i < 8, ∀ j < 8, (es[i]?.all fun e => es[j]?.all fun e' => i == j ||
      e.form.first.all fun x => e'.form.first.all fun y => decide (x.2 < y.1 ∨ y.2 < x.1)) = true := by decide +kernel
  have len : ∀ es ∈ table, es.length ≤ 8 := by decide
  intro c i j e e' hi hj h1 h2
  unfold row at hi hj
  cases hes : table[st]? with
  | none => rw [hes] at hi; simp at hi
  | some es =>
    rw [hes] at hi hj
    simp only [Option.getD_some] at hi hj
    apply Classical.byContradiction
    intro hne
    have hi' := (List.getElem?_eq_some_iff.1 hi).1
    have hj' := (List.getElem?_eq_some_iff.1 hj).1
    have hl := len es (List.mem_of_getElem? hes)
    obtain ⟨x, hx, hx'⟩ := Calc.inSet_iff.1 h1
    obtain ⟨y, hy, hy'⟩ := Calc.inSet_iff.1 h2
    have := disj es (List.mem_of_getElem? hes) i (by omega) j (by omega)
    rw [hi, hj] at this
    simp only [Option.all_some, Bool.or_eq_true, beq_iff_eq, List.all_eq_true, decide_eq_true_eq] at this
    rcases this with h | h
    · exact hne h
    · have := h x hx y hy
      omega

theorem same_rule {st : Nat} {i j : Nat} {e e' : Entry} (hi : (row st)[i]? = some e) (hj : (row st)[j]? = some e') {u v w v' w' : List Nat}
    (h1 : u = v ++ w) (h2 : u = v' ++ w') (g1 : e.form.Texts v) (g2 : e'.form.Texts v') : i = j := by
  obtain ⟨c, x, rfl, a1⟩ := texts_first g1
  obtain ⟨c', x', rfl, a2⟩ := texts_first g2
  rw [h1] at h2
  simp only [List.cons_append, List.cons.injEq] at h2
  rw [← h2.1] at a2
  exact apart st c i j e e' hi hj a1 a2

theorem takes_unique {st : Nat} {e e' : Entry} {v w v' w' : List Nat} (h : Takes (row st) e v w) (h' : Takes (row st) e' v' w') (hu : v ++ w = v' ++ w') :
    e = e' ∧ v = v' ∧ w = w' := by
  obtain ⟨i, hi⟩ := List.getElem?_of_mem h.mem
  obtain ⟨j, hj⟩ := List.getElem?_of_mem h'.mem
  have := same_rule hi hj rfl hu h.hit h'.hit
  subst this
  rw [hi] at hj
  cases hj
  have h1 := h.longest _ h'.mem v' w' hu h'.hit
  have h2 := h'.longest _ h.mem v w hu.symm h.hit
  obtain ⟨h3, h4⟩ := List.append_inj hu (by omega)
  exact ⟨rfl, h3, h4⟩

theorem takes_nothing {es : List Entry} {e : Entry} {v w : List Nat} (h : Takes es e v w) (h' : Nothing es (v ++ w)) : False :=
  h' e h.mem v w rfl h.hit

/-! ### Steps -/

/-- What is printed of a token. -/
def shown (id : Nat) (v : List Nat) : List Nat := if id = 1 then (v.drop 1).take (v.length - 2) else v

/-- `Steps st k u ls n`: with the lexer in state `st` with stack `k`, the text `u` leads to the
lines `ls` and a stack of size `n`. -/
inductive Steps : Nat → List (Nat × Nat) → List Nat → List Line → Nat → Prop
  | eoi (st k) : Steps st k [] [] k.length
  | none (st k c w ls n) : Nothing (row st) (c :: w) → Steps st k w ls n → Steps st k (c :: w) (⟨65535, [c], st⟩ :: ls) n
  | skip (st k e v w ls n) : Takes (row st) e v w → e.id = 65534 → Steps e.next k w ls n → Steps st k (v ++ w) ls n
  | token (st k e v w ls n) : Takes (row st) e v w → e.id ≠ 65534 → e.pop = false →
      Steps e.next (if e.push = 65535 then k else (e.push, e.id) :: k) w ls n → Steps st k (v ++ w) (⟨e.id, shown e.id v, e.next⟩ :: ls) n
  | pop (st x k e v w ls n) : Takes (row st) e v w → e.id ≠ 65534 → e.pop = true → Steps x.1 k w ls n →
      Steps st (x :: k) (v ++ w) (⟨e.id, shown e.id v, x.1⟩ :: ls) n

/-- The stack while inside objects and arrays. -/
inductive Nest : List (Nat × Nat) → Prop
  | one (i) : i ≠ 0 → Nest [(1, i)]
  | more (x k) : (x.1 = 6 ∨ x.1 = 8) → x.2 ≠ 0 → Nest k → Nest (x :: k)

/-- Lexer state and stack belong together. -/
def Inv (st : Nat) (k : List (Nat × Nat)) : Prop := (k = [] ∧ st ≤ 1) ∨ (Nest k ∧ 2 ≤ st ∧ st ≤ 9)

theorem Inv.lt {st : Nat} {k : List (Nat × Nat)} (h : Inv st k) : st < 10 := by
  rcases h with h | h <;> omega

set_option synthInstance.maxSize 2000 in
set_option synthInstance.maxHeartbeats 400000 in
theorem facts : ∀ st < 10, ∀ e ∈ row st, e.id ≠ 0 ∧ e.id ≠ 65535 ∧ (e.id = 1 → e.form = .str) ∧ (e.id = 65534 → e.push = 65535 ∧ e.pop = false) ∧
    (e.pop = true → 2 ≤ st) ∧ (e.pop = false → (e.push = 65535 → (st ≤ 1 → e.next = st) ∧ (2 ≤ st → 2 ≤ e.next ∧ e.next ≤ 9)) ∧
      (e.push ≠ 65535 → (e.next = 2 ∨ e.next = 7) ∧ (st ≤ 1 → e.push = 1) ∧ (2 ≤ st → e.push = 6 ∨ e.push = 8))) := by
  decide

theorem Inv.next {st : Nat} {k : List (Nat × Nat)} (h : Inv st k) {e : Entry} (he : e ∈ row st) (hp : e.pop = false) :
    Inv e.next (if e.push = 65535 then k else (e.push, e.id) :: k) := by
  obtain ⟨f1, f2, f3, f4, f5, f6⟩ := facts st h.lt e he
  obtain ⟨f7, f8⟩ := f6 hp
  split
  · rename_i hq
    obtain ⟨g1, g2⟩ := f7 hq
    rcases h with ⟨h1, h2⟩ | ⟨h1, h2, h3⟩
    · exact .inl ⟨h1, by rw [g1 h2]; exact h2⟩
    · exact .inr ⟨h1, g2 h2⟩
  · rename_i hq
    obtain ⟨g0, g1, g2⟩ := f8 hq
    right
    rcases h with ⟨h1, h2⟩ | ⟨h1, h2, h3⟩
    · rw [h1, g1 h2]
      exact ⟨.one _ f1, by omega⟩
    · exact ⟨.more _ _ (g2 h2) f1 h1, by omega⟩

theorem Inv.down {st : Nat} {x : Nat × Nat} {k : List (Nat × Nat)} (h : Inv st (x :: k)) : Inv x.1 k := by
  rcases h with ⟨h1, _⟩ | ⟨h1, _⟩
  · cases h1
  · cases h1 with
    | one => exact .inl ⟨rfl, Nat.le_refl 1⟩
    | more _ _ h1 h2 h3 => exact .inr ⟨h3, by omega⟩

theorem Nest.entries {k : List (Nat × Nat)} (h : Nest k) : ∀ e ∈ k, e.1 < 10 ∧ e.2 ≠ 0 := by
  induction h with
  | one i hi =>
    intro e he
    rw [List.mem_singleton.1 he]
    exact ⟨(by decide : 1 < 10), hi⟩
  | more x k h1 h2 _ ih =>
    intro e he
    rcases List.mem_cons.1 he with rfl | he
    · exact ⟨by omega, h2⟩
    · exact ih e he

theorem Inv.entries {st : Nat} {k : List (Nat × Nat)} (h : Inv st k) : ∀ e ∈ k, e.1 < 10 ∧ e.2 ≠ 0 := by
  rcases h with ⟨rfl, _⟩ | ⟨h, _⟩
  · intro e he; cases he
  · exact h.entries

theorem steps_total : ∀ (m : Nat) (st : Nat) (k : List (Nat × Nat)) (u : List Nat), u.length ≤ m → Inv st k → ∃ ls n, Steps st k u ls n
  | _, st, k, [], _, _ => ⟨_, _, .eoi st k⟩
  | 0, _, _, _ :: _, h, _ => by simp at h
  | m + 1, st, k, c :: u, hm, hI => by
    rcases takes_or (row st) (c :: u) with ⟨e, v, w, h1, h2⟩ | h
    · have hlen : w.length ≤ m := by
        obtain ⟨d, x, rfl, _⟩ := texts_first h2.hit
        have := congrArg List.length h1
        simp only [List.length_cons, List.length_append] at this hm
        omega
      rw [h1]
      obtain ⟨f1, f2, f3, f4, f5, f6⟩ := facts st hI.lt e h2.mem
      by_cases hid : e.id = 65534
      · obtain ⟨g1, g2⟩ := f4 hid
        have := hI.next h2.mem g2
        rw [if_pos g1] at this
        obtain ⟨ls, n, h⟩ := steps_total m e.next k w hlen this
        exact ⟨ls, n, .skip st k e v w ls n h2 hid h⟩
      · cases hp : e.pop with
        | false =>
          obtain ⟨ls, n, h⟩ := steps_total m e.next _ w hlen (hI.next h2.mem hp)
          exact ⟨_, n, .token st k e v w ls n h2 hid hp h⟩
        | true =>
          cases k with
          | nil =>
            rcases hI with ⟨_, h⟩ | ⟨h, _⟩
            · have := f5 hp; omega
            · cases h
          | cons x k =>
            obtain ⟨ls, n, h⟩ := steps_total m x.1 k w hlen hI.down
            exact ⟨_, n, .pop st x k e v w ls n h2 hid hp h⟩
    · obtain ⟨ls, n, h'⟩ := steps_total m st k u (by simpa using hm) hI
      exact ⟨_, n, .none st k c u ls n h h'⟩

/-! ### Calls of `lookup` -/

abbrev lexEnv (inp : List Nat) : LexEnv := ⟨xss, 65535, 0, Calc.flags, inp⟩

theorem line_iff {b : Bool} {f : Form} {v : List Nat} : LineMatch b (some f.re) (v.map .ch) ↔ f.Texts v := by
  rw [line_noBol (show NoBol (some f.re) from by cases f <;> rfl), ← form_lang]
  rfl

theorem xss_row {st : Nat} (h : st < 10) : xss[st]? = some ((row st).map Entry.rule) := by
  have h : st < table.length := h
  unfold xss row
  rw [List.getElem?_map, List.getElem?_eq_getElem h]
  rfl

theorem text_take {inp : List Nat} {p n : Nat} : text inp p (p + n) = ((inp.drop p).take n).map .ch := by
  rw [text, Nat.add_sub_cancel_left]

theorem rules_get {es : List Entry} {i : Nat} {x : Option Re} (hx : ((es.map Entry.rule).map (·.2))[i]? = some x) :
    ∃ e, es[i]? = some e ∧ x = some e.form.re := by
  simp only [List.getElem?_map, Option.map_eq_some_iff] at hx
  obtain ⟨r, ⟨e', h1, rfl⟩, rfl⟩ := hx
  exact ⟨e', h1, rfl⟩

theorem best {st : Nat} {inp : List Nat} {p : Nat} {e : Entry} {v w : List Nat} (hd : inp.drop p = v ++ w) (h : Takes (row st) e v w) {b : Bool}
    {j : Nat} (hj : (row st)[j]? = some e) :
    Best (LineMatch b) (((row st).map Entry.rule).map (·.2)) inp p inp.length (p + v.length) j ∧ 0 < v.length := by
  have hpos : 0 < v.length := by
    obtain ⟨c, x, rfl, _⟩ := texts_first h.hit
    simp
  have hlen : p + (v.length + w.length) = inp.length := by
    have := congrArg List.length hd
    simp only [List.length_drop, List.length_append] at this
    omega
  refine ⟨⟨by omega, by omega, ⟨some e.form.re, by simp [hj, Entry.rule, ruleOf], ?_⟩, ?_, ?_⟩, hpos⟩
  · rw [text_take, hd, List.take_left, line_iff]
    exact h.hit
  · intro i x hi hx
    obtain ⟨e', h1, rfl⟩ := rules_get hx
    rw [text_take, hd, List.take_left, line_iff]
    intro hm
    have := same_rule (u := v ++ w) (w := w) (w' := w) h1 hj rfl rfl hm h.hit
    omega
  · intro k' h1 h2 x hx
    obtain ⟨i, hi⟩ := List.getElem?_of_mem hx
    obtain ⟨e', h3, rfl⟩ := rules_get hi
    obtain ⟨m, rfl⟩ : ∃ m, k' = p + m := ⟨k' - p, by omega⟩
    rw [text_take, hd, line_iff]
    intro hm
    have := h.longest e' (List.mem_of_getElem? h3) _ _ (List.take_append_drop m (v ++ w)).symm hm
    rw [List.length_take, List.length_append] at this
    omega

theorem chosen {inp : List Nat} {r : Results} {p : Nat} {e : Entry} {v w : List Nat} (hd : inp.drop p = v ++ w) (he : r.eoi = inp.length)
    (hst : r.state < 10) (h : Takes (row r.state) e v w) :
    p < r.eoi ∧ ∃ b, (lexEnv inp).Chosen r p e.rule (p + v.length) e.next b := by
  obtain ⟨j, hj⟩ := List.getElem?_of_mem h.mem
  obtain ⟨hb, hpos⟩ := best hd h (b := (lexEnv inp).atLine r) hj
  refine ⟨?_, ?_⟩
  · have := congrArg List.length hd
    simp only [List.length_drop, List.length_append] at this
    omega
  rw [← he] at hb
  exact ⟨_, .text ((row r.state).map Entry.rule) e.rule _ j (xss_row hst) (by rw [List.getElem?_map, hj]; rfl) hb⟩

theorem line_eq {inp : List Nat} {r : Results} {p : Nat} {v w : List Nat} (hd : inp.drop p = v ++ w) (h1 : r.first = p) (h2 : r.second = p + v.length)
    (h3 : r.id = 1 → 2 ≤ v.length) : line inp r = .ok ⟨r.id, shown r.id v, r.state⟩ := by
  unfold line shown
  rw [h1, h2]
  split
  · rename_i hid
    have := h3 hid
    rw [if_pos (by omega), ← List.drop_drop, hd, List.drop_append_of_le_length (by omega),
      show p + v.length - 1 - (p + 1) = v.length - 2 from by omega, List.take_append_of_le_length (by simp; omega)]
  · rw [if_pos (by omega), hd, Nat.add_sub_cancel_left, List.take_left]

/-- What a call does, and then the program. -/
def Goes (sm : Internals) (inp : List Nat) (r : Results) (p : Nat) (ls : List Line) (n : Nat) : Prop :=
  ∃ r', (lexEnv inp).Lex r p (.ok r') ∧ ((r'.id = 0 ∧ ls = [] ∧ n = r'.stack.length) ∨
    (r'.id ≠ 0 ∧ ∃ l ls', ls = l :: ls' ∧ line inp r' = .ok l ∧ Run 65535 3 sm inp r' (.ok (ls', n))))

theorem run_goes {sm : Internals} {inp : List Nat} {r : Results}
    (hL : ∀ out : M Results, Returns Calc.flags 65535 3 sm inp r out ↔ (lexEnv inp).Lex { r with first := r.second } r.second out)
    {ls : List Line} {n : Nat} (h : Goes sm inp { r with first := r.second } r.second ls n) : Run 65535 3 sm inp r (.ok (ls, n)) := by
  obtain ⟨r', h1, ⟨h2, rfl, rfl⟩ | ⟨h2, l, ls', rfl, h3, h4⟩⟩ := h
  · exact .last r r' ((hL _).2 h1) h2
  · exact .more r r' l (.ok (ls', n)) ((hL _).2 h1) h2 h3 h4

theorem steps_goes {sm : Internals} {inp : List Nat}
    (hL : ∀ r : Results, r.state < 10 → (∀ e ∈ r.stack, e.1 < 10) → r.second ≤ r.eoi → r.eoi ≤ inp.length → ∀ out : M Results,
      Returns Calc.flags 65535 3 sm inp r out ↔ (lexEnv inp).Lex { r with first := r.second } r.second out)
    {st : Nat} {k : List (Nat × Nat)} {u : List Nat} {ls : List Line} {n : Nat} (h : Steps st k u ls n) :
    ∀ (r : Results) (p : Nat), Inv st k → r.first = p → inp.drop p = u → p ≤ inp.length → r.eoi = inp.length → r.state = st → r.stack = k →
      Goes sm inp r p ls n := by
  have next : ∀ (r' : Results) (ls : List Line) (n : Nat), Inv r'.state r'.stack → r'.second ≤ r'.eoi → r'.eoi = inp.length →
      Goes sm inp { r' with first := r'.second } r'.second ls n → Run 65535 3 sm inp r' (.ok (ls, n)) := by
    intro r' ls n hI h1 h2 h3
    exact run_goes (hL r' hI.lt (fun e he => (hI.entries e he).1) h1 (by omega)) h3
  have drp : ∀ (p : Nat) (v w : List Nat), inp.drop p = v ++ w → p ≤ inp.length → inp.drop (p + v.length) = w ∧ p + v.length ≤ inp.length := by
    intro p v w hd hp
    have := congrArg List.length hd
    simp only [List.length_drop, List.length_append] at this
    exact ⟨by rw [← List.drop_drop, hd, List.drop_left], by omega⟩
  induction h with
  | eoi st k =>
    intro r p hI hf hd hp he hs hk
    have : p = r.eoi := by
      have := congrArg List.length hd
      simp only [List.length_drop, List.length_nil] at this
      omega
    rw [this]
    exact ⟨_, .eoi r, .inl ⟨rfl, rfl, by rw [hk]⟩⟩
  | none st k c w ls n hN _ ih =>
    intro r p hI hf hd hp he hs hk
    have hc : inp[p]? = some c := by
      have := congrArg List.head? hd
      rw [List.head?_drop] at this
      exact this
    have hlt := Calc.drop_lt hd
    have hst := hI.lt
    refine ⟨_, .none r p ((row st).map Entry.rule) c (by omega) (by rw [hs]; exact xss_row hst) ?_ ?_ hc, .inr ⟨(by decide : (65535 : Nat) ≠ 0), _, ls, rfl, ?_, ?_⟩⟩
    · intro k' h1 h2 x hx
      obtain ⟨i, hi⟩ := List.getElem?_of_mem hx
      obtain ⟨e', h3, rfl⟩ := rules_get hi
      obtain ⟨m, rfl⟩ : ∃ m, k' = p + m := ⟨k' - p, by omega⟩
      rw [text_take, line_iff, hd]
      exact hN e' (List.mem_of_getElem? h3) _ _ (List.take_append_drop m _).symm
    · intro x hx
      obtain ⟨i, hi⟩ := List.getElem?_of_mem hx
      obtain ⟨e', h3, rfl⟩ := rules_get hi
      intro hm
      obtain ⟨_, _, h, _⟩ := texts_first ((form_lang e'.form []).1 hm)
      cases h
    · refine (line_eq (v := [c]) (w := w) hd rfl rfl (fun h => absurd h (by decide : (65535 : Nat) ≠ 1))).trans ?_
      show Except.ok (Line.mk 65535 (shown 65535 [c]) r.state) = _
      rw [hs]
      rfl
    · refine next _ ls n (by rw [show Results.state _ = st from hs, show Results.stack _ = k from hk]; exact hI) ?_ he ?_
      · show p + 1 ≤ r.eoi
        omega
      · obtain ⟨d1, d2⟩ := drp p [c] w hd hp
        exact ih _ _ hI rfl d1 d2 he hs hk
  | skip st k e v w ls n hT hid _ ih =>
    intro r p hI hf hd hp he hs hk
    have hst := hI.lt
    obtain ⟨h1, b, h2⟩ := chosen hd he (by rw [hs]; exact hst) (by rw [hs]; exact hT)
    obtain ⟨f1, f2, f3, f4, f5, f6⟩ := facts st hst e hT.mem
    obtain ⟨g1, g2⟩ := f4 hid
    have hI' := hI.next hT.mem g2
    rw [if_pos g1] at hI'
    obtain ⟨d1, d2⟩ := drp p v w hd hp
    obtain ⟨r', h3, h4⟩ := ih { r with first := p + v.length, second := p + v.length, bol := b, state := e.next } (p + v.length) hI' rfl d1 d2 he rfl hk
    refine ⟨r', .skip r { r with second := p + v.length, bol := b, state := e.next } p e.rule _ _ b _ h1 h2 ?_ hid h3, h4⟩
    unfold LexEnv.accept
    rw [if_neg (by simp [Entry.rule, ruleOf, g2])]
    simp [Entry.rule, ruleOf, g1, Calc.flags]
  | token st k e v w ls n hT hid hpop _ ih =>
    intro r p hI hf hd hp he hs hk
    have hst := hI.lt
    obtain ⟨h1, b, h2⟩ := chosen hd he (by rw [hs]; exact hst) (by rw [hs]; exact hT)
    obtain ⟨f1, f2, f3, f4, f5, f6⟩ := facts st hst e hT.mem
    have hI' := hI.next hT.mem hpop
    obtain ⟨d1, d2⟩ := drp p v w hd hp
    have ha : (lexEnv inp).accept e.rule.1 r (p + v.length) e.next b =
        .ok { r with second := p + v.length, bol := b, state := e.next, stack := if e.push = 65535 then k else (e.push, e.id) :: k } := by
      unfold LexEnv.accept
      rw [if_neg (by simp [Entry.rule, ruleOf, hpop])]
      simp [Entry.rule, ruleOf, Calc.flags, hk]
    refine ⟨_, .token r _ p e.rule _ _ b h1 h2 ha hid ?_, .inr ⟨f1, _, ls, rfl, ?_, ?_⟩⟩
    · rintro (g | ⟨_, g, _⟩)
      · exact f1 g
      · simp [Entry.rule, ruleOf, hpop] at g
    · refine line_eq (v := v) (w := w) hd hf rfl ?_
      · intro h
        have := f3 h
        have ht := hT.hit
        rw [this] at ht
        obtain ⟨b, _, rfl⟩ := ht
        simp
    · refine next _ ls n hI' ?_ he ?_
      · show p + v.length ≤ r.eoi
        omega
      · exact ih _ _ hI' rfl d1 d2 he rfl rfl
  | pop st x k e v w ls n hT hid hpop _ ih =>
    intro r p hI hf hd hp he hs hk
    have hst := hI.lt
    obtain ⟨h1, b, h2⟩ := chosen hd he (by rw [hs]; exact hst) (by rw [hs]; exact hT)
    obtain ⟨f1, f2, f3, f4, f5, f6⟩ := facts st hst e hT.mem
    have hI' := hI.down
    obtain ⟨d1, d2⟩ := drp p v w hd hp
    have ha : (lexEnv inp).accept e.rule.1 r (p + v.length) e.next b = .ok { r with second := p + v.length, stack := k, bol := b, state := x.1 } := by
      unfold LexEnv.accept
      rw [if_pos ⟨rfl, hpop⟩, hk]
      rfl
    refine ⟨_, .token r _ p e.rule _ _ b h1 h2 ha hid ?_, .inr ⟨f1, _, ls, rfl, ?_, ?_⟩⟩
    · rintro (g | ⟨_, _, y, s, g1, g2⟩)
      · exact f1 g
      · have g1 : k = y :: s := g1
        exact (hI.entries y (by rw [g1]; simp)).2 g2
    · refine line_eq (v := v) (w := w) hd hf rfl ?_
      · intro h
        have := f3 h
        have ht := hT.hit
        rw [this] at ht
        obtain ⟨b, _, rfl⟩ := ht
        simp
    · refine next _ ls n hI' ?_ he ?_
      · show p + v.length ≤ r.eoi
        omega
      · exact ih _ _ hI' rfl d1 d2 he rfl rfl

theorem run_unique {npos bytes : Nat} {sm : Internals} {inp : List Nat} {r : Results} {o o' : M (List Line × Nat)} (h : Run npos bytes sm inp r o)
    (h' : Run npos bytes sm inp r o') : o = o' := by
  induction h generalizing o' with
  | fault r e h1 =>
    cases h' with
    | fault _ e' g1 => cases returns_unique h1 g1; rfl
    | last _ r' g1 _ => cases returns_unique h1 g1
    | stop _ r' e' g1 _ _ => cases returns_unique h1 g1
    | more _ r' l o g1 _ _ _ => cases returns_unique h1 g1
  | last r r' h1 h2 =>
    cases h' with
    | fault _ e' g1 => cases returns_unique h1 g1
    | last _ r' g1 _ => cases returns_unique h1 g1; rfl
    | stop _ r' e' g1 g2 _ => cases returns_unique h1 g1; exact absurd h2 g2
    | more _ r' l o g1 g2 _ _ => cases returns_unique h1 g1; exact absurd h2 g2
  | stop r r' e h1 h2 h3 =>
    cases h' with
    | fault _ e' g1 => cases returns_unique h1 g1
    | last _ r' g1 g2 => cases returns_unique h1 g1; exact absurd g2 h2
    | stop _ r' e' g1 g2 g3 => cases returns_unique h1 g1; rw [h3] at g3; cases g3; rfl
    | more _ r' l o g1 g2 g3 _ => cases returns_unique h1 g1; rw [h3] at g3; cases g3
  | more r r' l o h1 h2 h3 _ ih =>
    cases h' with
    | fault _ e' g1 => cases returns_unique h1 g1
    | last _ r' g1 g2 => cases returns_unique h1 g1; exact absurd g2 h2
    | stop _ r' e' g1 g2 g3 => cases returns_unique h1 g1; rw [h3] at g3; cases g3
    | more _ r' l o g1 g2 g3 g4 => cases returns_unique h1 g1; rw [h3] at g3; cases g3; rw [ih g4]

end Lexertl.Json
