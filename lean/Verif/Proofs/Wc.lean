import Verif.Model.Wc
import Verif.Spec.Wc
import Verif.Props.Regexes

/-
The program wc: its rules, what they match, and the loop.
-/
namespace Lexertl.Wc
open Spec Reading Props

/-! ### What the texts mean -/

def ws : Re := .chars [(9, 9), (32, 32)]
def nonws : Re := .chars [(0, 8), (11, 31), (33, 255)]
def newl : Re := .alt (.alt (.chars [(13, 13)]) (.chars [(10, 10)])) (.seq (.chars [(13, 13)]) (.chars [(10, 10)]))

def calls : List Call :=
  [.insertMacro (chars "ws") (chars "[ \t]"), .insertMacro (chars "nonws") (chars "[^ \t\n]"),
   .push (chars "{nonws}+") 1 65535, .push (chars "{ws}+") 2 65535, .push (chars "\r|\n|\r\n") 3 65535]

def macros : List (List Nat × Re) := [(chars "nonws", nonws), (chars "ws", ws)]
def exprs : List (Re × Nat × Nat) := [(.plus nonws false, 1, 65535), (.plus ws false, 2, 65535), (newl, 3, 65535)]

theorem means_ws : Means Ex.env [] {} (chars "[ \t]") ws := by
  refine atom_means (S := fun c => Closed Ex.env false (· = 32) c ∨ Closed Ex.env false (· = 9) c)
    (.set true [32, 9, 93] _ [] (.pos _ _ (by decide) (.more true [32] _ [9, 93] _ (.inl rfl)
    (.char [32] 32 _ (.self 32 _ (by decide) (by decide)) (by decide)) (.last false [9] _ (.inr (by decide))
    (.char [9] 9 _ (.self 9 _ (by decide) (by decide)) (by decide)))) ⟨32, .inl (.inl rfl)⟩)) ⟨⟨by decide, by decide⟩, fun c => ?_⟩
  simp only [Mem, Closed, List.mem_cons, List.not_mem_nil, or_false, exists_eq_or_imp, exists_eq_left, Bool.false_eq_true, false_and]
  omega

theorem means_nonws : Means Ex.env [(chars "ws", ws)] {} (chars "[^ \t\n]") nonws := by
  refine atom_means (S := Compl Ex.env fun c => Closed Ex.env false (· = 32) c ∨ Closed Ex.env false (· = 9) c ∨ Closed Ex.env false (· = 10) c)
    (.set true [94, 32, 9, 10, 93] _ [] (.neg [32, 9, 10, 93] _ (.more true [32] _ [9, 10, 93] _ (.inl rfl)
    (.char [32] 32 _ (.self 32 _ (by decide) (by decide)) (by decide)) (.more false [9] _ [10, 93] _ (.inr (by decide))
    (.char [9] 9 _ (.self 9 _ (by decide) (by decide)) (by decide)) (.last false [10] _ (.inr (by decide))
    (.char [10] 10 _ (.self 10 _ (by decide) (by decide)) (by decide))))) ⟨0, by simp [Compl, Closed]⟩)) ⟨⟨by decide, by decide⟩, fun c => ?_⟩
  simp only [Mem, Closed, Compl, List.mem_cons, List.not_mem_nil, or_false, exists_eq_or_imp, exists_eq_left, Bool.false_eq_true, false_and]
  simp only [Ex.env]
  omega

theorem means_word : Means Ex.env macros {} (chars "{nonws}+") (.plus nonws false) :=
  ⟨[.mac (chars "nonws"), .rep 1 none false],
    .mac true {} [] (chars "nonws") [43] _ ⟨⟨110, rfl, by decide⟩, by decide⟩ (.rep false {} [] [43] 1 none [] _ (by decide) (by decide) (.done _ _)),
    .alt1 _ _ (.seq1 _ _ (.rep [.mac (chars "nonws")] nonws 1 none false (.mac _ _ (by decide))))⟩

theorem means_blanks : Means Ex.env macros {} (chars "{ws}+") (.plus ws false) :=
  ⟨[.mac (chars "ws"), .rep 1 none false],
    .mac true {} [] (chars "ws") [43] _ ⟨⟨119, rfl, by decide⟩, by decide⟩ (.rep false {} [] [43] 1 none [] _ (by decide) (by decide) (.done _ _)),
    .alt1 _ _ (.seq1 _ _ (.rep [.mac (chars "ws")] ws 1 none false (.mac _ _ (by decide))))⟩

theorem means_newl : Means Ex.env macros {} (chars "\r|\n|\r\n") newl := by
  refine ⟨[.chars [(13, 13)], .bar, .chars [(10, 10)], .bar, .chars [(13, 13)], .chars [(10, 10)]], ?_, ?_⟩
  · refine .atom true {} [] false [13] _ _ (chars "|\n|\r\n") _ (.plain _ _ _ (by decide) (by decide)) (Ex.isSet_chr 13) ?_
    refine .bar false {} [] (chars "\n|\r\n") _ ?_
    refine .atom false {} [] false [10] _ _ (chars "|\r\n") _ (.plain _ _ _ (by decide) (by decide)) (Ex.isSet_chr 10) ?_
    refine .bar false {} [] (chars "\r\n") _ ?_
    refine .atom false {} [] false [13] _ _ (chars "\n") _ (.plain _ _ _ (by decide) (by decide)) (Ex.isSet_chr 13) ?_
    exact .atom false {} [] false [10] _ _ [] _ (.plain _ _ _ (by decide) (by decide)) (Ex.isSet_chr 10) (.done _ _)
  · exact .alt [.chars [(13, 13)], .bar, .chars [(10, 10)]] [.chars [(13, 13)], .chars [(10, 10)]] _ _
      (.alt [.chars [(13, 13)]] [.chars [(10, 10)]] _ _ (.alt1 _ _ (.seq1 _ _ (.item _ _ (.set _ _ (.chars _)))))
        (.seq1 _ _ (.item _ _ (.set _ _ (.chars _)))))
      (.seq [.chars [(13, 13)]] [.chars [(10, 10)]] _ _ (.seq1 _ _ (.item _ _ (.set _ _ (.chars _)))) (.item _ _ (.set _ _ (.chars _))))

theorem program : Program Ex.env Ex.tr.npos {} calls macros exprs :=
  .rule [_, _, _, _] _ [_, _] _ _ _ _
    (.rule [_, _, _] _ [_] _ _ _ _
      (.rule [_, _] _ [] _ _ _ _
        (.mac [_] [_] [] _ _ _ (.mac [] [] [] _ _ _ .nil (by decide) rfl (by unfold TextOk; decide) means_ws rfl rfl)
          (by decide) (by decide) (by unfold TextOk; decide) means_nonws rfl rfl)
        (by unfold TextOk; decide) means_word rfl (by decide) (by decide))
      (by unfold TextOk; decide) means_blanks rfl (by decide) (by decide))
    (by unfold TextOk; decide) means_newl rfl (by decide) (by decide)

/-! ### The object after the calls -/

theorem allOk_snoc {E : TokEnv} {tr : Traits} {o o'' : RulesObj} {cs : List Call} {c : Call} (h : AllOk E tr o (cs ++ [c]) o'') :
    ∃ o', AllOk E tr o cs o' ∧ c.run E tr o' = (o'', .ok ()) := by
  generalize hc : cs ++ [c] = ds at h
  cases h with
  | nil => exact absurd (congrArg List.length hc) (by simp)
  | snoc ds p d p' g1 g2 =>
    obtain ⟨h3, h4⟩ := List.append_inj' hc rfl
    injection h4 with h4 _
    subst h3 h4
    exact ⟨_, g1, g2⟩

theorem rules_eq {o : RulesObj} (h : AllOk Ex.env Ex.tr (RulesObj.new Ex.tr {}) calls o) :
    rules Ex.env Ex.tr = .ok o ∧ o = Ex.runs calls Ex.obj0 := by
  obtain ⟨o4, h, g5⟩ := allOk_snoc (cs := [_, _, _, _]) h
  obtain ⟨o3, h, g4⟩ := allOk_snoc (cs := [_, _, _]) h
  obtain ⟨o2, h, g3⟩ := allOk_snoc (cs := [_, _]) h
  obtain ⟨o1, h, g2⟩ := allOk_snoc (cs := [_]) h
  obtain ⟨o0, h, g1⟩ := allOk_snoc (cs := []) h
  have := allOk_nil h
  subst this
  simp only [Call.run] at g1 g2 g3 g4 g5
  constructor
  · unfold rules
    rw [g1]
    simp only [done, bind, Except.bind]
    rw [g2]
    dsimp only
    rw [show Ex.tr.npos = 65535 from rfl, g3]
    dsimp only
    rw [g4]
    dsimp only
    rw [g5]
  · unfold Ex.runs Ex.obj0 calls
    simp only [List.foldl, Call.run, g1, g2, g3, g4, g5]

/-! ### What is matched -/

theorem pow_chars {t : List (Nat × Nat)} : ∀ (k : Nat) (cs : List Nat),
    Spec.Pow (Re.chars t).Matches k (cs.map .ch) ↔ cs.length = k ∧ ∀ c ∈ cs, Mem c t
  | 0, cs => by
    cases cs <;> simp [Spec.Pow]
  | k + 1, cs => by
    constructor
    · rintro ⟨u, v, h1, ⟨c, h2, rfl⟩, h3⟩
      cases cs with
      | nil => simp at h1
      | cons d cs =>
        simp only [List.map_cons, List.cons_append, List.nil_append, List.cons.injEq, Sym.ch.injEq] at h1
        obtain ⟨rfl, rfl⟩ := h1
        obtain ⟨h4, h5⟩ := (pow_chars k cs).1 h3
        refine ⟨by simp [h4], fun x hx => ?_⟩
        rcases List.mem_cons.1 hx with rfl | hx
        · exact h2
        · exact h5 x hx
    · rintro ⟨h1, h2⟩
      cases cs with
      | nil => simp at h1
      | cons d cs =>
        exact ⟨[.ch d], cs.map .ch, rfl, ⟨d, h2 d (by simp), rfl⟩,
          (pow_chars k cs).2 ⟨by simpa using h1, fun c hc => h2 c (by simp [hc])⟩⟩

theorem plus_chars {t : List (Nat × Nat)} {lz : Bool} (cs : List Nat) :
    (Re.plus (.chars t) lz).Matches (cs.map .ch) ↔ cs ≠ [] ∧ ∀ c ∈ cs, Mem c t := by
  constructor
  · rintro ⟨k, hk, h⟩
    obtain ⟨h1, h2⟩ := (pow_chars k cs).1 h
    exact ⟨by rintro rfl; simp at h1; omega, h2⟩
  · rintro ⟨h1, h2⟩
    exact ⟨cs.length, List.length_pos_iff.2 h1, (pow_chars _ cs).2 ⟨rfl, h2⟩⟩

theorem mem_ws (c : Nat) : Mem c [(9, 9), (32, 32)] ↔ c = 9 ∨ c = 32 := by
  simp only [Mem, List.mem_cons, List.not_mem_nil, or_false, exists_eq_or_imp, exists_eq_left]
  omega

theorem mem_nonws (c : Nat) : Mem c [(0, 8), (11, 31), (33, 255)] ↔ c ≤ 255 ∧ Spec.Wc.isBlank c = false := by
  simp only [Mem, List.mem_cons, List.not_mem_nil, or_false, exists_eq_or_imp, exists_eq_left, Spec.Wc.isBlank, Bool.or_eq_false_iff,
    beq_eq_false_iff_ne]
  omega

theorem newl_iff (cs : List Nat) : newl.Matches (cs.map .ch) ↔ cs = [13] ∨ cs = [10] ∨ cs = [13, 10] := by
  have hone : ∀ (x : Nat) (w : List Sym), (Re.chars [(x, x)]).Matches w ↔ w = [.ch x] := by
    intro x w
    constructor
    · rintro ⟨d, h, rfl⟩
      rw [mem_one] at h
      rw [h]
    · rintro rfl
      exact ⟨x, (mem_one x x).2 rfl, rfl⟩
  have hinj : ∀ (a : List Nat), cs.map Sym.ch = a.map Sym.ch ↔ cs = a := by
    intro a
    constructor
    · intro h
      have := congrArg (List.map fun s : Sym => match s with | .ch c => c | _ => 0) h
      simpa [Function.comp_def] using this
    · rintro rfl; rfl
  unfold newl Re.Matches Re.Matches
  rw [hone, hone, show ([Sym.ch 13] : List Sym) = [13].map .ch from rfl, show ([Sym.ch 10] : List Sym) = [10].map .ch from rfl, hinj, hinj,
    or_assoc]
  refine or_congr Iff.rfl (or_congr Iff.rfl ?_)
  rw [← hinj]
  constructor
  · rintro ⟨u, v, h1, h2, h3⟩
    rw [hone] at h2 h3
    rw [h1, h2, h3]; rfl
  · intro h
    exact ⟨_, _, h, (hone 13 _).2 rfl, (hone 10 _).2 rfl⟩

/-- The best match, in terms of what remains of the input. -/
theorem best_of {inp : List Nat} {p n j : Nat} {e : Option Re} (hp : p < inp.length) (hn : 0 < n) (hn' : n ≤ (inp.drop p).length)
    (hj : (exprs.map fun e => some e.1)[j]? = some e) (hit : RMatches e (((inp.drop p).take n).map .ch))
    (first : ∀ i e, i < j → (exprs.map fun e => some e.1)[i]? = some e → ¬ RMatches e (((inp.drop p).take n).map .ch))
    (longest : ∀ m, n < m → m ≤ (inp.drop p).length → ∀ e ∈ exprs.map fun e => some e.1, ¬ RMatches e (((inp.drop p).take m).map .ch)) :
    Best RMatches (exprs.map fun e => some e.1) inp p inp.length (p + n) j := by
  rw [List.length_drop] at hn' longest
  refine ⟨by omega, by omega, ⟨e, hj, ?_⟩, ?_, ?_⟩
  · rw [text, Nat.add_sub_cancel_left]; exact hit
  · intro i e hi h
    rw [text, Nat.add_sub_cancel_left]; exact first i e hi h
  · intro k' h1 h2 e he
    rw [text]
    exact longest (k' - p) (by omega) (by omega) e he

/-- The token at the front of `w`: its length and its rule. -/
def token : List Nat → Nat × Nat
  | [] => (0, 0)
  | c :: w =>
    if c = 10 then (1, 2)
    else if c = 9 ∨ c = 32 then (((c :: w).takeWhile fun c => c == 9 || c == 32).length, 1)
    else if c = 13 ∧ w.head? = some 10 then (2, 2)
    else (((c :: w).takeWhile fun c => !Spec.Wc.isBlank c).length, 0)

theorem take_all {q : Nat → Bool} : ∀ (w : List Nat) (n : Nat), n ≤ w.length → (∀ c ∈ w.take n, q c = true) → n ≤ (w.takeWhile q).length
  | [], n, h, _ => by simpa using h
  | c :: w, 0, _, _ => by simp
  | c :: w, n + 1, h, g => by
    have h1 := g c (by simp)
    rw [List.takeWhile_cons, if_pos h1, List.length_cons]
    have := take_all w n (by simpa using h) (fun d hd => g d (by simp [hd]))
    omega

theorem take_takeWhile {q : Nat → Bool} (w : List Nat) : w.take (w.takeWhile q).length = w.takeWhile q := by
  have := List.takeWhile_append_dropWhile (p := q) (l := w)
  conv => lhs; arg 2; rw [← this]
  rw [List.take_left']
  rfl

theorem best_token {inp : List Nat} (hinp : ∀ c ∈ inp, c < 256) {p : Nat} (hp : p < inp.length) :
    Best RMatches (exprs.map fun e => some e.1) inp p inp.length (p + (token (inp.drop p)).1) (token (inp.drop p)).2 := by
  have hw : ∀ c ∈ inp.drop p, c < 256 := fun c hc => hinp c (List.mem_of_mem_drop hc)
  cases hd : inp.drop p with
  | nil =>
    have := congrArg List.length hd
    simp at this
    omega
  | cons c w =>
    rw [hd] at hw
    have hmem : ∀ (n : Nat), ∀ d ∈ (c :: w).take n, d ≤ 255 := fun n d h => Nat.le_of_lt_succ (hw d (List.mem_of_mem_take h))
    have hword : ∀ n, 0 < n → (RMatches (some (.plus nonws false)) (((c :: w).take n).map .ch) ↔
        ∀ d ∈ (c :: w).take n, Spec.Wc.isBlank d = false) := by
      intro n hn
      unfold RMatches nonws
      dsimp only
      rw [plus_chars]
      constructor
      · exact fun h d hd => ((mem_nonws d).1 (h.2 d hd)).2
      · refine fun h => ⟨?_, fun d hd => (mem_nonws d).2 ⟨hmem n d hd, h d hd⟩⟩
        obtain ⟨n, rfl⟩ : ∃ m, n = m + 1 := ⟨n - 1, by omega⟩
        simp
    have hws : ∀ n, 0 < n → (RMatches (some (.plus ws false)) (((c :: w).take n).map .ch) ↔
        ∀ d ∈ (c :: w).take n, (d == 9 || d == 32) = true) := by
      intro n hn
      unfold RMatches ws
      dsimp only
      rw [plus_chars]
      constructor
      · exact fun h d hd => by simpa using (mem_ws d).1 (h.2 d hd)
      · refine fun h => ⟨?_, fun d hd => (mem_ws d).2 (by simpa using h d hd)⟩
        obtain ⟨n, rfl⟩ : ∃ m, n = m + 1 := ⟨n - 1, by omega⟩
        simp
    have hnl : ∀ n, RMatches (some newl) (((c :: w).take n).map .ch) ↔ (c :: w).take n = [13] ∨ (c :: w).take n = [10] ∨ (c :: w).take n = [13, 10] :=
      fun n => newl_iff _
    have hhead : ∀ n, 0 < n → c ∈ (c :: w).take n := by
      intro n hn
      obtain ⟨n, rfl⟩ : ∃ m, n = m + 1 := ⟨n - 1, by omega⟩
      simp
    have hcases : ∀ {P : Option Re → Prop}, P (some (.plus nonws false)) → P (some (.plus ws false)) → P (some newl) →
        ∀ e ∈ exprs.map fun e => some e.1, P e := by
      intro P h1 h2 h3 e he
      simp only [exprs, List.map_cons, List.map_nil, List.mem_cons, List.not_mem_nil, or_false] at he
      rcases he with rfl | rfl | rfl <;> assumption
    dsimp only [token]
    split
    · -- a newline
      rename_i hc
      subst hc
      refine best_of hp (by decide) (by rw [hd]; simp) (e := some newl) rfl ?_ ?_ ?_
      · rw [hd, hnl]; exact .inr (.inl rfl)
      · intro i e hi he
        have : i = 0 ∨ i = 1 := by simp only at hi; omega
        rw [hd]
        rcases this with rfl | rfl
        · cases he
          rw [hword _ (by decide)]
          intro h
          exact absurd (h 10 (by simp)) (by decide)
        · cases he
          rw [hws _ (by decide)]
          intro h
          exact absurd (h 10 (by simp)) (by decide)
      · intro m hm hm'
        rw [hd] at hm' ⊢
        simp only at hm
        refine hcases ?_ ?_ ?_
        · rw [hword _ (by omega)]
          intro h
          exact absurd (h 10 (hhead m (by omega))) (by decide)
        · rw [hws _ (by omega)]
          intro h
          exact absurd (h 10 (hhead m (by omega))) (by decide)
        · rw [hnl]
          obtain ⟨m, rfl⟩ : ∃ l, m = l + 2 := ⟨m - 2, by omega⟩
          cases w with
          | nil => simp at hm'
          | cons d w => simp
    split
    · -- blanks
      rename_i h10 hc
      have hb : (c == 9 || c == 32) = true := by simpa using hc
      have hn : 0 < ((c :: w).takeWhile fun c => c == 9 || c == 32).length := by rw [List.takeWhile_cons, if_pos hb]; simp
      have hcb : Spec.Wc.isBlank c = true := by rcases hc with rfl | rfl <;> rfl
      have hne : ∀ m, 0 < m → ¬ RMatches (some (.plus nonws false)) (((c :: w).take m).map .ch) := by
        intro m hm
        rw [hword _ hm]
        intro h
        rw [h c (hhead m hm)] at hcb
        cases hcb
      refine best_of hp ?_ ?_ (e := some (.plus ws false)) rfl ?_ ?_ ?_
      · exact hn
      · rw [hd]; exact (List.takeWhile_sublist _).length_le
      · rw [hd, hws _ hn, take_takeWhile]
        intro d hd'
        exact (List.all_eq_true.1 (List.all_takeWhile (l := c :: w))) d hd'
      · intro i e hi he
        have : i = 0 := by simp only at hi; omega
        subst this
        cases he
        rw [hd]
        exact hne _ hn
      · intro m hm hm'
        rw [hd] at hm' ⊢
        refine hcases (hne m (by omega)) ?_ ?_
        · rw [hws _ (by omega)]
          intro h
          have := take_all _ _ hm' h
          simp only at hm
          omega
        · rw [hnl]
          obtain ⟨m, rfl⟩ : ∃ l, m = l + 1 := ⟨m - 1, by omega⟩
          simp only [List.take_succ_cons, List.cons.injEq]
          omega
    split
    · -- `\r\n`
      rename_i h10 hbl hc
      obtain ⟨rfl, hc⟩ := hc
      cases w with
      | nil => simp at hc
      | cons d w =>
      simp only [List.head?_cons, Option.some.injEq] at hc
      subst hc
      have h13 : ∀ m, 0 < m → ¬ RMatches (some (.plus ws false)) (((13 :: 10 :: w).take m).map .ch) := by
        intro m hm
        rw [hws _ hm]
        intro h
        exact absurd (h 13 (hhead m hm)) (by decide)
      have h02 : ∀ m, 2 ≤ m → ¬ RMatches (some (.plus nonws false)) (((13 :: 10 :: w).take m).map .ch) := by
        intro m hm
        rw [hword _ (by omega)]
        intro h
        obtain ⟨m, rfl⟩ : ∃ l, m = l + 2 := ⟨m - 2, by omega⟩
        exact absurd (h 10 (by simp)) (by decide)
      refine best_of hp (by decide) (by rw [hd]; simp) (e := some newl) rfl ?_ ?_ ?_
      · rw [hd, hnl]; exact .inr (.inr rfl)
      · intro i e hi he
        have : i = 0 ∨ i = 1 := by simp only at hi; omega
        rw [hd]
        rcases this with rfl | rfl
        · cases he
          exact h02 2 (by decide)
        · cases he
          exact h13 2 (by decide)
      · intro m hm hm'
        rw [hd] at hm' ⊢
        simp only at hm
        refine hcases (h02 m (by omega)) (h13 m (by omega)) ?_
        rw [hnl]
        obtain ⟨m, rfl⟩ : ∃ l, m = l + 3 := ⟨m - 3, by omega⟩
        cases w with
        | nil => simp at hm'
        | cons d w => simp
    · -- a word
      rename_i h10 hbl hc
      have hb : (!Spec.Wc.isBlank c) = true := by
        simp only [Spec.Wc.isBlank, Bool.not_eq_true', Bool.or_eq_false_iff, beq_eq_false_iff_ne]
        omega
      have hn : 0 < ((c :: w).takeWhile fun c => !Spec.Wc.isBlank c).length := by rw [List.takeWhile_cons, if_pos hb]; simp
      refine best_of hp ?_ ?_ (e := some (.plus nonws false)) rfl ?_ ?_ ?_
      · exact hn
      · rw [hd]; exact (List.takeWhile_sublist _).length_le
      · rw [hd, hword _ hn, take_takeWhile]
        intro d hd'
        have := (List.all_eq_true.1 (List.all_takeWhile (l := c :: w))) d hd'
        simpa using this
      · intro i e hi
        exact absurd hi (Nat.not_lt_zero i)
      · intro m hm hm'
        rw [hd] at hm' ⊢
        simp only at hm
        refine hcases ?_ ?_ ?_
        · rw [hword _ (by omega)]
          intro h
          have := take_all (q := fun c => !Spec.Wc.isBlank c) _ _ hm' (fun d hd => by simp [h d hd])
          omega
        · rw [hws _ (by omega)]
          intro h
          have := h c (hhead m (by omega))
          simp at this
          omega
        · rw [hnl]
          obtain ⟨m, rfl⟩ : ∃ l, m = l + 2 := ⟨m - 2, by omega⟩
          cases w with
          | nil => simp at hm'
          | cons d w =>
            simp only [List.take_succ_cons, List.cons.injEq, reduceCtorEq, and_false, false_or]
            simp only [List.head?_cons, Option.some.injEq] at hc
            intro h
            exact hc ⟨h.1, h.2.1⟩

/-! ### Counting -/

open Spec.Wc (isBlank wordStart words lines)

/-- The number of words; `b`: a word may start at the front. -/
def wordsFrom : Bool → List Nat → Nat
  | _, [] => 0
  | b, c :: w => (if (!isBlank c && b && !(c == 13 && w.head? == some 10)) = true then 1 else 0) + wordsFrom (isBlank c) w

/-- A word starts at position `i`; `b`: it may start at the front. -/
def startFrom (b : Bool) (w : List Nat) (i : Nat) : Bool :=
  w[i]?.any (fun c => !isBlank c) && (if i = 0 then b else w[i - 1]?.any isBlank) && !(w[i]? == some 13 && w[i + 1]? == some 10)

theorem startFrom_count : ∀ (w : List Nat) (b : Bool), (List.range w.length).countP (startFrom b w) = wordsFrom b w
  | [], _ => rfl
  | c :: w, b => by
    rw [List.length_cons, List.range_succ_eq_map, List.countP_cons, List.countP_map, wordsFrom, Nat.add_comm]
    congr 1
    · have : w[0]? = w.head? := by cases w <;> rfl
      simp [startFrom, this]
    · rw [← startFrom_count w (isBlank c)]
      congr 1
      funext i
      cases i with
      | zero => simp [startFrom]
      | succ i => simp [startFrom]

theorem words_eq (w : List Nat) : words w = wordsFrom true w := by
  rw [← startFrom_count, words]
  congr 1
  funext i
  cases i <;> simp [wordStart, startFrom]

theorem wordsFrom_blanks {b : Bool} {c : Nat} {w : List Nat} (h : (c == 9 || c == 32) = true) :
    wordsFrom b (c :: w) = wordsFrom true ((c :: w).drop ((c :: w).takeWhile fun c => c == 9 || c == 32).length) ∧
    lines (c :: w) = lines ((c :: w).drop ((c :: w).takeWhile fun c => c == 9 || c == 32).length) := by
  have hb : isBlank c = true := by simp [isBlank] at h ⊢; omega
  have h10 : (c == 10) = false := by simp at h ⊢; omega
  rw [List.takeWhile_cons, if_pos h, List.length_cons, List.drop_succ_cons, wordsFrom, hb]
  simp only [Bool.not_true, Bool.false_and, Bool.false_eq_true, if_false, Nat.zero_add]
  have hl : lines (c :: w) = lines w := by simp [lines, h10]
  rw [hl]
  cases w with
  | nil => exact ⟨rfl, rfl⟩
  | cons d w =>
    by_cases hd : (d == 9 || d == 32) = true
    · exact wordsFrom_blanks hd
    · rw [List.takeWhile_cons, if_neg hd]
      exact ⟨rfl, rfl⟩

theorem wordsFrom_word : ∀ {w : List Nat}, wordsFrom false w = wordsFrom true (w.drop (w.takeWhile fun c => !isBlank c).length) ∧
    lines w = lines (w.drop (w.takeWhile fun c => !isBlank c).length)
  | [] => ⟨rfl, rfl⟩
  | c :: w => by
    by_cases hc : (!isBlank c) = true
    · have h10 : (c == 10) = false := by simp [isBlank] at hc ⊢; omega
      have hl : lines (c :: w) = lines w := by simp [lines, h10]
      have hb : isBlank c = false := by simpa using hc
      rw [List.takeWhile_cons, if_pos hc, List.length_cons, List.drop_succ_cons, wordsFrom, hl, hb]
      simp only [Bool.and_false, Bool.false_and, Bool.false_eq_true, if_false, Nat.zero_add]
      exact wordsFrom_word
    · have hb : isBlank c = true := by simpa using hc
      rw [List.takeWhile_cons, if_neg hc]
      simp [wordsFrom, hb]

/-- The token at the front, and what it contributes. -/
theorem token_counts {w : List Nat} (hw : w ≠ []) :
    ((token w).2 = 0 ∧ wordsFrom true w = 1 + wordsFrom true (w.drop (token w).1) ∧ lines w = lines (w.drop (token w).1)) ∨
    ((token w).2 = 1 ∧ wordsFrom true w = wordsFrom true (w.drop (token w).1) ∧ lines w = lines (w.drop (token w).1)) ∨
    ((token w).2 = 2 ∧ wordsFrom true w = wordsFrom true (w.drop (token w).1) ∧ lines w = 1 + lines (w.drop (token w).1)) := by
  cases w with
  | nil => exact absurd rfl hw
  | cons c w =>
    dsimp only [token]
    split
    · rename_i hc
      subst hc
      refine .inr (.inr ⟨rfl, ?_, ?_⟩)
      · simp [wordsFrom, isBlank]
      · simp [lines, Nat.add_comm]
    split
    · rename_i hc
      exact .inr (.inl ⟨rfl, wordsFrom_blanks (by simpa using hc)⟩)
    split
    · rename_i hc
      obtain ⟨rfl, hc⟩ := hc
      cases w with
      | nil => simp at hc
      | cons d w =>
        simp only [List.head?_cons, Option.some.injEq] at hc
        subst hc
        refine .inr (.inr ⟨rfl, ?_, ?_⟩)
        · simp [wordsFrom, isBlank]
        · simp [lines, Nat.add_comm]
    · rename_i h10 hbl hc
      have hb : isBlank c = false := by
        simp only [isBlank, Bool.or_eq_false_iff, beq_eq_false_iff_ne]
        omega
      have h10' : (c == 10) = false := by simpa using h10
      have hl : lines (c :: w) = lines w := by simp [lines, h10']
      have hcr : (c == 13 && w.head? == some 10) = false := by
        rw [Bool.and_eq_false_iff]
        by_cases h : c = 13
        · right
          rw [beq_eq_false_iff_ne]
          exact fun g => hc ⟨h, g⟩
        · left
          simpa using h
      refine .inl ⟨rfl, ?_, ?_⟩
      · rw [List.takeWhile_cons, if_pos (by simp [hb]), List.length_cons, List.drop_succ_cons, wordsFrom, hb, hcr]
        simp only [Bool.not_false, Bool.and_true, if_true]
        rw [wordsFrom_word.1]
      · rw [List.takeWhile_cons, if_pos (by simp [hb]), List.length_cons, List.drop_succ_cons, hl]
        exact wordsFrom_word.2

/-! ### The loop -/

theorem bmod_small {x : Int} (h1 : 0 ≤ x) (h2 : x < 2 ^ 31) : Int.bmod x (2 ^ 32) = x := by
  rw [Int.bmod_def]
  split <;> omega

theorem incr_small {x : Int} (h2 : x < 2 ^ 31 - 1) : incr x = .ok (x + 1) := by
  unfold incr
  rw [if_neg (by omega)]

theorem loop_counts {sm : Internals} (heoi : sm.eoi = 0) {inp : List Nat} (hinp : ∀ c ∈ inp, c < 256) (hlen : inp.length < 2 ^ 31)
    (hlex : ∀ r : Results, r.state = 0 → r.second < r.eoi → r.eoi ≤ inp.length →
      ∀ k j e, Best RMatches (exprs.map fun e => some e.1) inp r.second r.eoi k j → exprs[j]? = some e → e.2.1 ≠ 65535 - 1 →
      ∃ r', lookup flags 65535 1 sm inp r = .ok r' ∧ r'.first = r.second ∧ r'.second = k ∧ r'.id = e.2.1 ∧ r'.userId = e.2.2 ∧
        r'.eoi = r.eoi ∧ r'.state = 0) :
    ∀ (n : Nat) (r : Results) (k : Counts), r.state = 0 → r.eoi = inp.length → r.second ≤ inp.length → inp.length - r.second < n →
      k.cc = r.second → k.wc ≤ r.second → k.lc ≤ r.second →
      loop Ex.tr sm inp n r k = .ok ⟨inp.length, k.wc + wordsFrom true (inp.drop r.second), k.lc + lines (inp.drop r.second)⟩
  | 0, r, k, _, _, _, h, _, _, _ => absurd h (Nat.not_lt_zero _)
  | n + 1, r, k, hs, he, hp, hn, hcc, hwc, hlc => by
    rw [loop]
    by_cases hend : r.second = inp.length
    · have : lookup flags Ex.tr.npos 1 sm inp r = .ok { r with first := r.second, id := 0, userId := 65535 } := by
        rw [lookup, lookupFuel, nextLoop, if_pos (by rw [he]; exact hend), heoi]
        rfl
      rw [this]
      simp only [bind, Except.bind, count, if_true, ne_eq, not_true_eq_false, if_false]
      rw [hend, List.drop_length]
      simp only [wordsFrom, lines, List.countP_nil, Int.natCast_zero, Int.add_zero]
      rw [← hend, ← hcc]
    · have hlt : r.second < inp.length := by omega
      have hne : inp.drop r.second ≠ [] := by
        intro h
        have := congrArg List.length h
        simp at this
        omega
      have hbest := best_token hinp hlt
      have hdrop : (inp.drop r.second).drop (token (inp.drop r.second)).1 = inp.drop (r.second + (token (inp.drop r.second)).1) :=
        List.drop_drop
      have hpos := hbest.nonempty
      have hin := hbest.inside
      rw [← he] at hbest
      have step : ∀ j e, (token (inp.drop r.second)).2 = j → exprs[j]? = some e → e.2.1 ≠ 65535 - 1 → _ :=
        fun j e hj h1 h2 => hlex r hs (by omega) (by omega) _ j e (hj ▸ hbest) h1 h2
      rcases token_counts hne with ⟨h1, h2, h3⟩ | ⟨h1, h2, h3⟩ | ⟨h1, h2, h3⟩ <;>
      · obtain ⟨r', g1, g2, g3, g4, _, g6, g7⟩ := step _ _ h1 rfl (by decide)
        have ih := loop_counts heoi hinp hlen hlex n r'
        rw [show Ex.tr.npos = 65535 from rfl, g1]
        simp only [bind, Except.bind, count]
        dsimp only at g4
        rw [g4]
        have hl : addLength k.cc r' = r'.second := by
          unfold addLength
          rw [hcc, g2, show (r.second : Int) + ((r'.second : Int) - r.second) = r'.second by omega, bmod_small (by omega) (by omega)]
        rw [h2, h3, hdrop, ← g3]
        simp only [if_false, if_true, ne_eq, not_false_eq_true, Nat.reduceEqDiff, Nat.succ_ne_zero]
        try rw [incr_small (by omega)]
        simp only [hl]
        rw [ih _ g7 (g6.trans he) (by omega) (by omega) rfl (by simp only; omega) (by simp only; omega)]
        try (congr 2 <;> (dsimp only; omega))

end Lexertl.Wc
