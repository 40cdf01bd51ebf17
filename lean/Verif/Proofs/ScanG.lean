import Verif.Proofs.Scan

/-
One match attempt of `lookup` on a table whose rows mean what `GAuto` says: with `$`
and with non-greedy operators.
-/
namespace Lexertl
open Spec

/-- Reading the input character `c` after the symbols `u`. -/
def NextOkP (bytes : Nat) (d : Dfa) (n : Nat) (M At : Nat → List Sym → Prop) (Stop : List Sym → Prop)
    (enc : Nat → List Sym) (c : Nat) (u : List Sym) : Prop :=
  ∀ (s : LuState), At s.ptr u →
    (∃ r, s.nextChar bytes d c = .ok ({ s with ptr := r }, r) ∧ r ≠ 0 ∧ At r (u ++ enc c)) ∨
    (∃ r u', s.nextChar bytes d c = .ok ({ s with ptr := r }, 0) ∧ At r u' ∧
      ((∀ j w, j < n → ¬ M j (u ++ enc c ++ w)) ∨ Stop u))

/-- As `NextOkP`, for tables in the sense of `GAuto`. -/
abbrev NextOkG (bytes : Nat) (d : Dfa) (n : Nat) (info : Nat → NodeData) (M At : Nat → List Sym → Prop)
    (enc : Nat → List Sym) (c : Nat) (u : List Sym) : Prop :=
  NextOkP bytes d n M At (StopAt n info M) enc c u

theorem stopAt_hit {n : Nat} {info : Nat → NodeData} {M : Nat → List Sym → Prop} (u : List Sym) :
    StopAt n info M u → ∃ j, j < n ∧ M j u := fun ⟨j, h1, h2, _⟩ => ⟨j, h1, h2⟩

/-- Rule `j` is the first one to match `w`. -/
def FirstM (n : Nat) (M : Nat → List Sym → Prop) (j : Nat) (w : List Sym) : Prop :=
  j < n ∧ M j w ∧ ∀ i, i < j → ¬ M i w

/-- `$` is satisfied at `k`. -/
def LineEndAt (f : Flags) (inp : List Nat) (eoi k : Nat) : Prop :=
  f.eol = true ∧ (k = eoi ∨ inp[k]? = some 13 ∨ inp[k]? = some 10)

section
variable {d : Dfa} {size n : Nat} {info : Nat → NodeData} {M At : Nat → List Sym → Prop} {Stop : List Sym → Prop}

/-- Nothing matches after `k`; `U k` are the symbols up to `k`. -/
def QuietG (n : Nat) (M : Nat → List Sym → Prop) (f : Flags) (inp : List Nat) (eoi : Nat) (U : Nat → List Sym)
    (k : Nat) : Prop :=
  ∀ k', k < k' → k' ≤ eoi → (∀ j, j < n → ¬ M j (U k')) ∧
    (LineEndAt f inp eoi k' → ∀ j, j < n → ¬ M j (U k' ++ [.eol]))

/-- No rule matches by `$` at `k`. -/
def NoEolAt (n : Nat) (M : Nat → List Sym → Prop) (f : Flags) (inp : List Nat) (eoi : Nat) (U : Nat → List Sym)
    (k : Nat) : Prop :=
  LineEndAt f inp eoi k → ∀ j, j < n → ¬ M j (U k ++ [.eol])

/-- `end_state` in a row. -/
theorem GAutoP.endStep (A : GAutoP d size n info M At Stop)
    (hinfo : ∀ j, j < n → ∃ a b c d e f g, info j = .fin a b c d e f g) (f : Flags) (s : LuState)
    (u : List Sym) (hs : At s.ptr u) (endTok curr : Nat) :
    ∃ s' endTok', s.endStep f d endTok curr = .ok (s', endTok') ∧ s'.ptr = s.ptr ∧ s'.bol = s.bol ∧
      s'.eolState = s.eolState ∧
      (((∀ j, j < n → ¬ M j u) ∧ endTok' = endTok ∧ s' = s) ∨
       (∃ j, FirstM n M j u ∧ endTok' = curr ∧ Hit f (info j) s.bol s s')) := by
  obtain ⟨e, h1, h2⟩ := A.fin _ _ hs
  unfold LuState.endStep
  rw [h1 ixEnd (by decide)]
  rcases h2 with ⟨rfl, h2⟩ | ⟨j, hj, h2, h3, rfl⟩
  · refine ⟨s, endTok, ?_, rfl, rfl, rfl, .inl ⟨h2, rfl, rfl⟩⟩
    simp only [cells_none, bind, Except.bind, ne_eq, not_true_eq_false, if_false]
  · obtain ⟨a, b, c, e, k, p, g, hi⟩ := hinfo j hj
    rw [hi] at h1 ⊢
    obtain ⟨c1, c2, c3, c4, c5, c6⟩ := cells_fin size a b c e k p g
    refine ⟨⟨s.ptr, true, a, b, s.bol, if f.bol then s.bol else s.endBol, s.eolState,
      if f.multiState then e else s.startState, if f.recursive then p else s.pop,
      if f.recursive then k else s.pushDfa⟩, curr, ?_, ?_⟩
    · simp only [bind, Except.bind]
      rw [if_pos c1, h1 ixId (by decide), h1 ixUserId (by decide), h1 ixPushDfa (by decide),
        h1 ixNextDfa (by decide), c2, c3, c4, c5, c6]
    · exact ⟨rfl, rfl, rfl, .inr ⟨j, ⟨hj, h2, h3⟩, rfl, a, b, c, e, k, p, g, hi, rfl, rfl, rfl, rfl, rfl, rfl, rfl⟩⟩

/-- The end node of a row reached by `$`. -/
theorem GAutoP.endStep_eol (A : GAutoP d size n info M At Stop)
    (hinfo : ∀ j, j < n → ∃ a b c d e f g, info j = .fin a b c d e f g)
    (hlast : ∀ j u w, j < n → M j (u ++ .eol :: w) → w = []) (f : Flags) (s : LuState)
    (u : List Sym) (hs : At s.ptr (u ++ [.eol])) (endTok curr : Nat) :
    ∃ s' j, s.endStep f d endTok curr = .ok (s', curr) ∧ s'.ptr = s.ptr ∧ s'.bol = s.bol ∧
      s'.eolState = s.eolState ∧ FirstM n M j (u ++ [.eol]) ∧ Hit f (info j) s.bol s s' := by
  obtain ⟨s', t', h1, h2, h3, h4, h5⟩ := A.endStep hinfo f s _ hs endTok curr
  rcases h5 with ⟨h5, _⟩ | ⟨j, h5, rfl, h6⟩
  · obtain ⟨j, w, hj, hw⟩ := A.live _ _ hs
    rw [List.append_assoc, List.singleton_append] at hw
    have := hlast j u w hj hw
    subst this
    exact absurd hw (h5 j hj)
  · exact ⟨s', j, h1, h2, h3, h4, h5, h6⟩

/-- A row reached by `$` has no eol transition. -/
theorem GAutoP.eol_last (A : GAutoP d size n info M At Stop)
    (hlast : ∀ j u w, j < n → M j (u ++ .eol :: w) → w = []) {r : Nat} {u : List Sym} (hs : At r (u ++ [.eol])) :
    getCell d.rows r ixEol = .ok 0 := by
  obtain ⟨e, h1, h2, _⟩ := A.eol _ _ hs
  rw [h1]
  by_cases h : e = 0
  · rw [h]
  · obtain ⟨j, w, hj, hw⟩ := A.live _ _ (h2 h)
    rw [List.append_assoc, List.append_assoc] at hw
    have := hlast j u _ hj hw
    simp at this

theorem GAutoP.row_lt (A : GAutoP d size n info M At Stop) {r : Nat} {u : List Sym} (h : At r u) : r < d.rows.length := by
  obtain ⟨e, h1, _⟩ := A.fin r u h
  have := h1 0 (by decide)
  unfold getCell at this
  cases hr : d.rows[r]? with
  | none => rw [hr] at this; cases this
  | some x => exact (List.getElem?_eq_some_iff.1 hr).1

/-- The scanning loop followed by `check_eol`. -/
def LuState.run (f : Flags) (npos bytes : Nat) (d : Dfa) (inp : List Nat) (eoi fuel : Nat) (s : LuState) (curr endTok : Nat) :
    Lexertl.M (LuState × Nat) :=
  s.scan f bytes d inp eoi fuel curr endTok >>= fun x => x.1.checkEol f npos d x.2.2 x.2.1 eoi

theorem GAutoP.scan (A : GAutoP d size n info M At Stop) (hstop : ∀ u, Stop u → ∃ j, j < n ∧ M j u) (hinfo : ∀ j, j < n → ∃ a b c d e f g, info j = .fin a b c d e f g)
    (f : Flags) (npos bytes : Nat) (inp : List Nat) (eoi : Nat) (heoi : eoi ≤ inp.length)
    (hrows : d.rows.length < npos)
    (enc : Nat → List Sym) (henc : ∀ c, enc c ≠ []) (pre : List Sym) (p : Nat) (U : Nat → List Sym)
    (hU : ∀ k, U k = pre ++ segSyms enc inp p k)
    (hlast : ∀ j u w, j < n → M j (u ++ .eol :: w) → w = [])
    (hline : ∀ k c i j w, p ≤ k → k < eoi → inp[k]? = some c → c = 13 ∨ c = 10 → i < n → j < n →
      M i (U k ++ [.eol]) → ¬ M j (U k ++ enc c ++ w))
    (hnext : ∀ k c, p ≤ k → k < eoi → inp[k]? = some c → NextOkP bytes d n M At Stop enc c (U k) ∧
      NextOkP bytes d n M At Stop enc c (U k ++ [.eol]))
    (fuel : Nat) : ∀ (s : LuState) (curr endTok : Nat), p ≤ curr → curr ≤ eoi → eoi - curr + 1 < fuel →
    At s.ptr (U curr) → s.eolState ≠ npos →
    ∃ s' endTok', s.run f npos bytes d inp eoi fuel curr endTok = .ok (s', endTok') ∧
      ((Same s s' ∧ endTok' = endTok ∧ (Stop (U curr) ∨
          (QuietG n M f inp eoi U curr ∧ NoEolAt n M f inp eoi U curr))) ∨
       (∃ k j, curr ≤ k ∧ k ≤ eoi ∧ endTok' = k ∧
          Hit f (info j) (if k = curr then s.bol else inp[k - 1]? == some 10) s s' ∧
          ((LineEndAt f inp eoi k ∧ FirstM n M j (U k ++ [.eol]) ∧ QuietG n M f inp eoi U k) ∨
           (curr < k ∧ FirstM n M j (U k) ∧ (Stop (U k) ∨
              (QuietG n M f inp eoi U k ∧ NoEolAt n M f inp eoi U k)))))) := by
  induction fuel with
  | zero => intro s curr endTok _ _ h; omega
  | succ fuel ih =>
    intro s curr endTok hp hc hf hat hes
    unfold LuState.run LuState.scan
    by_cases he : curr = eoi
    · rw [if_pos he]
      simp only [bind, Except.bind]
      unfold LuState.checkEol
      have hquiet : QuietG n M f inp eoi U curr := fun k' h1 h2 => by omega
      by_cases hfe : f.eol = true
      · rw [if_pos ⟨hfe, hes, he⟩]
        obtain ⟨e, e1, e2, e3⟩ := A.eol _ _ hat
        rw [e1]
        simp only [bind, Except.bind]
        by_cases h0 : e = 0
        · rw [if_neg (by simp [h0])]
          refine ⟨_, _, rfl, .inl ⟨⟨rfl, rfl, rfl, rfl, rfl, rfl, rfl⟩, rfl, ?_⟩⟩
          rcases e3 h0 with h | h
          · exact .inr ⟨hquiet, fun _ j hj => h j [] hj⟩
          · exact .inl h
        · rw [if_pos h0]
          obtain ⟨s', j, q1, q2, q3, q4, q5, q6⟩ := A.endStep_eol hinfo hlast f
            { s with eolState := e, ptr := e } (U curr) (e2 h0) endTok curr
          refine ⟨s', curr, q1, .inr ⟨curr, j, Nat.le_refl _, hc, rfl, ?_, .inl ⟨⟨hfe, .inl he⟩, q5, hquiet⟩⟩⟩
          rw [if_pos rfl]
          exact Hit.of_same ⟨rfl, rfl, rfl, rfl, rfl, rfl, rfl⟩ q6
      · rw [if_neg (fun h => hfe h.1)]
        exact ⟨_, _, rfl, .inl ⟨.refl s, rfl, .inr ⟨hquiet, fun h => absurd h.1 hfe⟩⟩⟩
    · rw [if_neg he]
      have hlt : curr < inp.length := by omega
      have hlt' : curr < eoi := by omega
      have hget : inp[curr]? = some inp[curr] := List.getElem?_eq_getElem hlt
      have hch : charAt inp eoi curr = .ok inp[curr] := by
        unfold charAt; rw [if_pos hlt', hget]
      generalize inp[curr] = c at hget hch
      obtain ⟨hn1, hn2⟩ := hnext curr c hp hlt' hget
      have hUs : U (curr + 1) = U curr ++ enc c := by
        rw [hU, hU, segSyms_succ enc inp p curr hp hget, List.append_assoc]
      have hUk : ∀ k, curr < k → k ≤ eoi → ∃ w, U k = U curr ++ enc c ++ w := by
        intro k h1 h2
        refine ⟨segSyms enc inp (curr + 1) k, ?_⟩
        rw [← hUs, hU, hU, segSyms_split enc inp p (curr + 1) k (by omega) (by omega), List.append_assoc]
      have hquiet : (∀ j w, j < n → ¬ M j (U curr ++ enc c ++ w)) → QuietG n M f inp eoi U curr := by
        intro h k' h1 h2
        obtain ⟨w, hw⟩ := hUk k' h1 h2
        rw [hw]
        exact ⟨fun j hj => h j w hj, fun _ j hj => by rw [List.append_assoc _ w]; exact h j _ hj⟩
      obtain ⟨e, e1, e2, e3⟩ := A.eol _ _ hat
      simp only [hch, bind, Except.bind]
      by_cases hcase : f.eol = true ∧ e ≠ 0 ∧ (c = 13 ∨ c = 10)
      · -- `$`
        obtain ⟨hfe, h0, hcr⟩ := hcase
        have hisEol : s.isEol f d (some c) = .ok ({ s with eolState := e, ptr := e }, true) := by
          unfold LuState.isEol
          rw [if_pos hfe, e1]
          simp only [bind, Except.bind]
          rw [if_pos ⟨h0, by simpa using hcr⟩]
        rw [hisEol]
        simp only [if_true]
        obtain ⟨s1, j, q1, q2, q3, q4, q5, q6⟩ := A.endStep_eol hinfo hlast f
          { s with eolState := e, ptr := e } (U curr) (e2 h0) endTok curr
        rw [q1]
        simp only
        obtain ⟨fuel, rfl⟩ : ∃ m, fuel = m + 1 := ⟨fuel - 1, by omega⟩
        rw [LuState.scan, if_neg he]
        simp only [hch, bind, Except.bind]
        have hat1 : At s1.ptr (U curr ++ [.eol]) := by rw [q2]; exact e2 h0
        have hisEol2 : s1.isEol f d (some c) = .ok ({ s1 with eolState := 0 }, false) := by
          unfold LuState.isEol
          rw [if_pos hfe, A.eol_last hlast hat1]
          simp [bind, Except.bind]
        rw [hisEol2]
        simp only [Bool.false_eq_true, if_false]
        rcases hn2 { s1 with eolState := 0 } hat1 with ⟨r, n1, n2, n3⟩ | ⟨r, u', n1, n2, n3⟩
        · obtain ⟨i, w, hi, hw⟩ := A.live _ _ n3
          rw [List.append_assoc, List.append_assoc, List.singleton_append] at hw
          have := hlast i (U curr) _ hi hw
          exact absurd (List.append_eq_nil_iff.1 this).1 (henc c)
        rw [n1]
        simp only [if_true]
        generalize hs2 : (if f.bol then
          ({ ptr := r, endState := s1.endState, id := s1.id, uid := s1.uid, bol := c == 10, endBol := s1.endBol, eolState := 0, startState := s1.startState, pop := s1.pop, pushDfa := s1.pushDfa } : LuState)
          else { ptr := r, endState := s1.endState, id := s1.id, uid := s1.uid, bol := s1.bol, endBol := s1.endBol, eolState := 0, startState := s1.startState, pop := s1.pop, pushDfa := s1.pushDfa }) = s2
        have hsame : Same s1 s2 ∧ s2.ptr = r := by
          subst hs2
          cases f.bol <;> exact ⟨⟨rfl, rfl, rfl, rfl, rfl, rfl, rfl⟩, rfl⟩
        obtain ⟨p1, p2⟩ := hsame
        obtain ⟨e', e1', _⟩ := A.eol _ _ n2
        have hisEol3 : s2.isEol f d none = .ok ({ s2 with eolState := e' }, false) := by
          unfold LuState.isEol
          rw [if_pos hfe, p2, e1']
          simp [bind, Except.bind]
        rw [hisEol3]
        simp only
        unfold LuState.checkEol
        rw [if_neg (fun h => he h.2.2)]
        refine ⟨_, _, rfl, .inr ⟨curr, j, Nat.le_refl _, hc, rfl, ?_, .inl ⟨⟨hfe, .inr ?_⟩, q5, ?_⟩⟩⟩
        · rw [if_pos rfl]
          have q6' : Hit f (info j) s.bol s s1 := Hit.of_same ⟨rfl, rfl, rfl, rfl, rfl, rfl, rfl⟩ q6
          exact (q6'.same p1).same ⟨rfl, rfl, rfl, rfl, rfl, rfl, rfl⟩
        · rw [hget]; simpa using hcr
        · exact hquiet fun i w hi => hline curr c j i w hp hlt' hget hcr q5.1 hi q5.2.1
      · have hnoeol : Stop (U curr) ∨ NoEolAt n M f inp eoi U curr := by
          by_cases h0 : e = 0
          · rcases e3 h0 with h | h
            · exact .inr fun _ j hj => h j [] hj
            · exact .inl h
          · right
            rintro ⟨h1, h2⟩
            refine absurd ⟨h1, h0, ?_⟩ hcase
            rw [hget] at h2
            rcases h2 with h2 | h2 | h2
            · omega
            · exact .inl (by simpa using h2)
            · exact .inr (by simpa using h2)
        obtain ⟨s0, hisEol, hs0, hs0p, hs0b, hs0e⟩ : ∃ s0, s.isEol f d (some c) = .ok (s0, false) ∧ Same s s0 ∧
            s0.ptr = s.ptr ∧ s0.bol = s.bol ∧ s0.eolState ≠ npos := by
          unfold LuState.isEol
          by_cases hfe : f.eol = true
          · rw [if_pos hfe, e1]
            simp only [bind, Except.bind]
            rw [if_neg (fun h => hcase ⟨hfe, h.1, by simpa using h.2⟩)]
            refine ⟨_, rfl, ⟨rfl, rfl, rfl, rfl, rfl, rfl, rfl⟩, rfl, rfl, ?_⟩
            by_cases h0 : e = 0
            · show e ≠ npos; omega
            · have := A.row_lt (e2 h0)
              show e ≠ npos; omega
          · rw [if_neg hfe]
            exact ⟨s, rfl, .refl s, rfl, rfl, hes⟩
        rw [hisEol]
        simp only [Bool.false_eq_true, if_false]
        rcases hn1 s0 (by rw [hs0p]; exact hat) with ⟨r, n1, n2, n3⟩ | ⟨r, u', n1, n2, n3⟩
        · -- a transition
          rw [n1]
          simp only [if_neg n2]
          rw [← hUs] at n3
          generalize hs1 : (if f.bol then
            ({ ptr := r, endState := s0.endState, id := s0.id, uid := s0.uid, bol := c == 10, endBol := s0.endBol, eolState := s0.eolState, startState := s0.startState, pop := s0.pop, pushDfa := s0.pushDfa } : LuState)
            else { ptr := r, endState := s0.endState, id := s0.id, uid := s0.uid, bol := s0.bol, endBol := s0.endBol, eolState := s0.eolState, startState := s0.startState, pop := s0.pop, pushDfa := s0.pushDfa }) = s1
          have hsame : Same s0 s1 ∧ s1.ptr = r ∧ (f.bol = true → s1.bol = (c == 10)) ∧ s1.eolState = s0.eolState := by
            subst hs1
            cases f.bol <;> exact ⟨⟨rfl, rfl, rfl, rfl, rfl, rfl, rfl⟩, rfl, by simp, rfl⟩
          obtain ⟨q1, q2, q3, q4⟩ := hsame
          have q1 := hs0.trans q1
          obtain ⟨s2, t2, f1, f2, f3, f4, f5⟩ := A.endStep hinfo f s1 _ (by rw [q2]; exact n3) endTok (curr + 1)
          rw [f1]
          simp only
          obtain ⟨s', endTok', r1, r2⟩ := ih s2 (curr + 1) t2 (by omega) (by omega) (by omega)
            (by rw [f2, q2]; exact n3) (by rw [f4, q4]; exact hs0e)
          refine ⟨s', endTok', r1, ?_⟩
          have hb : ∀ nd, Hit f nd s1.bol s1 s2 → Hit f nd (inp[curr + 1 - 1]? == some 10) s1 s2 := by
            rintro nd ⟨id, uid, u, next, push, pop, g, h0, h1, h2, h3, h4, h5⟩
            refine ⟨id, uid, u, next, push, pop, g, h0, h1, h2, h3, ?_, h5⟩
            rw [h4]
            cases hfb : f.bol with
            | false => rfl
            | true => rw [q3 hfb, Nat.add_sub_cancel, hget]; rfl
          rcases r2 with ⟨r2, r3, r4⟩ | ⟨k, j, k1, k2, k3, k4, k5⟩
          · rcases f5 with ⟨f5, f6, f7⟩ | ⟨j, j1, j2, j3⟩
            · left
              subst f7
              refine ⟨q1.trans r2, by rw [r3, f6], ?_⟩
              rcases hnoeol with hst | hno
              · exact .inl hst
              right
              refine ⟨?_, hno⟩
              rcases r4 with g | ⟨g1, g2⟩
              · obtain ⟨j, g1, g2⟩ := hstop _ g
                exact absurd g2 (f5 j g1)
              · intro k' h1 h2
                by_cases hk : k' = curr + 1
                · subst hk
                  exact ⟨f5, g2⟩
                · exact g1 k' (by omega) h2
            · right
              refine ⟨curr + 1, j, by omega, by omega, by rw [r3, j2], ?_, .inr ⟨by omega, j1, r4⟩⟩
              rw [if_neg (by omega)]
              exact ((hb _ j3).same r2).of_same q1
          · right
            refine ⟨k, j, by omega, k2, k3, ?_, ?_⟩
            · rw [if_neg (by omega)]
              have hs2b : f.bol = true → s2.bol = (inp[curr + 1 - 1]? == some 10) := by
                intro hfb
                rw [f3, q3 hfb, Nat.add_sub_cancel, hget]; rfl
              have k4' : Hit f (info j) (inp[k - 1]? == some 10) s2 s' := by
                by_cases hk : k = curr + 1
                · rw [if_pos hk] at k4
                  obtain ⟨id, uid, u, next, push, pop, g, h0, h1, h2, h3, h4, h5⟩ := k4
                  refine ⟨id, uid, u, next, push, pop, g, h0, h1, h2, h3, ?_, h5⟩
                  rw [h4, hk]
                  cases hfb : f.bol with
                  | false => rfl
                  | true => rw [hs2b hfb]
                · rw [if_neg hk] at k4
                  exact k4
              rcases f5 with ⟨_, _, e7⟩ | ⟨j', _, _, j5⟩
              · subst e7; exact k4'.of_same q1
              · exact Hit.of_same q1 (j5.of_hit k4')
            · rcases k5 with k5 | ⟨k5, k6⟩
              · exact .inl k5
              · exact .inr ⟨by omega, k6⟩
        · -- no transition
          rw [n1]
          simp only [if_true]
          generalize hs1 : (if f.bol then
            ({ ptr := r, endState := s0.endState, id := s0.id, uid := s0.uid, bol := c == 10, endBol := s0.endBol, eolState := s0.eolState, startState := s0.startState, pop := s0.pop, pushDfa := s0.pushDfa } : LuState)
            else { ptr := r, endState := s0.endState, id := s0.id, uid := s0.uid, bol := s0.bol, endBol := s0.endBol, eolState := s0.eolState, startState := s0.startState, pop := s0.pop, pushDfa := s0.pushDfa }) = s1
          have hsame : Same s0 s1 ∧ s1.ptr = r := by
            subst hs1
            cases f.bol <;> exact ⟨⟨rfl, rfl, rfl, rfl, rfl, rfl, rfl⟩, rfl⟩
          obtain ⟨q1, q2⟩ := hsame
          obtain ⟨e', hisEol3⟩ : ∃ e', s1.isEol f d none = .ok ({ s1 with eolState := e' }, false) := by
            unfold LuState.isEol
            by_cases hfe : f.eol = true
            · obtain ⟨e', e1', _⟩ := A.eol _ _ n2
              refine ⟨e', ?_⟩
              rw [if_pos hfe, q2, e1']
              simp [bind, Except.bind]
            · rw [if_neg hfe]
              exact ⟨s1.eolState, rfl⟩
          rw [hisEol3]
          simp only
          unfold LuState.checkEol
          rw [if_neg (fun h => he h.2.2)]
          refine ⟨_, _, rfl, .inl ⟨(hs0.trans q1).trans ⟨rfl, rfl, rfl, rfl, rfl, rfl, rfl⟩, rfl, ?_⟩⟩
          rcases n3 with n3 | n3
          · rcases hnoeol with h | h
            · exact .inl h
            · exact .inr ⟨hquiet n3, h⟩
          · exact .inl n3

/-- `lookup_state` before the first character: row 1. -/
theorem GAutoP.init (A : GAutoP d size n info M At Stop)
    (hinfo : ∀ j, j < n → ∃ a b c d e f g, info j = .fin a b c d e f g) (bol : Bool) (state : Nat) :
    ∃ s, LuState.init d bol state = .ok s ∧ s.ptr = 1 ∧ s.bol = bol ∧ s.endBol = bol ∧
      s.startState = state ∧ s.eolState = 0 ∧
      ((s.endState = false ∧ ∀ j, j < n → ¬ M j []) ∨
       (∃ j, FirstM n M j [] ∧ ∃ id uid u next push pop g,
          info j = .fin id uid u next push pop g ∧ s.endState = true ∧ s.id = id ∧ s.uid = uid ∧
          s.pop = pop ∧ s.pushDfa = push)) := by
  obtain ⟨e, h1, h2⟩ := A.fin _ _ A.ini
  have hi : LuState.init d bol state = .ok
      ⟨1, cellOf [newRow size e] 0 ixEnd != 0, cellOf [newRow size e] 0 ixId,
        cellOf [newRow size e] 0 ixUserId, bol, bol, 0, state,
        hasBit (cellOf [newRow size e] 0 ixEnd) bitPop, cellOf [newRow size e] 0 ixPushDfa⟩ := by
    unfold LuState.init
    rw [h1 ixEnd (by decide), h1 ixId (by decide), h1 ixUserId (by decide), h1 ixPushDfa (by decide)]
    rfl
  refine ⟨_, hi, rfl, rfl, rfl, rfl, rfl, ?_⟩
  rcases h2 with ⟨rfl, h2⟩ | ⟨j, hj, h2, h3, rfl⟩
  · left
    refine ⟨?_, h2⟩
    simp only [cells_none]; rfl
  · right
    obtain ⟨a, b, c, e, k, p, g, hi⟩ := hinfo j hj
    obtain ⟨c1, c2, c3, c4, c5, c6⟩ := cells_fin size a b c e k p g
    refine ⟨j, ⟨hj, h2, h3⟩, a, b, c, e, k, p, g, hi, ?_⟩
    rw [hi]
    exact ⟨by simpa using c1, c3, c4, c2, c5⟩

/-- One match attempt. -/
theorem GAutoP.attempt (A : GAutoP d size n info M At Stop) (hstop : ∀ u, Stop u → ∃ j, j < n ∧ M j u)
    (hinfo : ∀ j, j < n → ∃ a b c d e f g, info j = .fin a b c d e f g)
    (f : Flags) (npos bytes : Nat) (sm : Internals) (inp : List Nat) (r : Results) (p : Nat)
    (hd : sm.dfaAt r.state = .ok d) (hp : p < r.eoi) (heoi : r.eoi ≤ inp.length)
    (hrows : d.rows.length < npos)
    (enc : Nat → List Sym) (henc : ∀ c, enc c ≠ [])
    (hlast : ∀ j u w, j < n → M j (u ++ .eol :: w) → w = [])
    (hline : ∀ pre, pre = [] ∨ pre = [.bol] → ∀ k c i j w, p ≤ k → k < r.eoi → inp[k]? = some c → c = 13 ∨ c = 10 →
      i < n → j < n → M i (pre ++ segSyms enc inp p k ++ [.eol]) → ¬ M j (pre ++ segSyms enc inp p k ++ enc c ++ w))
    (hnext : ∀ pre, pre = [] ∨ pre = [.bol] → ∀ k c, p ≤ k → k < r.eoi → inp[k]? = some c →
      NextOkP bytes d n M At Stop enc c (pre ++ segSyms enc inp p k) ∧
      NextOkP bytes d n M At Stop enc c (pre ++ segSyms enc inp p k ++ [.eol])) :
    ∃ pre s endTok, Lexertl.attempt f npos bytes sm inp r p p = .ok (s, endTok) ∧
      ((pre = [.bol] ∧ f.bol = true ∧ r.bol = true ∧ ∃ j w, j < n ∧ M j (.bol :: w)) ∨
       (pre = [] ∧ (f.bol = true → r.bol = true → (∀ j w, j < n → ¬ M j (.bol :: w)) ∨ Stop []))) ∧
      ((∃ k j, p ≤ k ∧ k ≤ r.eoi ∧ endTok = k ∧
          ((LineEndAt f inp r.eoi k ∧ FirstM n M j (pre ++ segSyms enc inp p k ++ [.eol]) ∧
              QuietG n M f inp r.eoi (fun k => pre ++ segSyms enc inp p k) k) ∨
           (p < k ∧ FirstM n M j (pre ++ segSyms enc inp p k) ∧ (Stop (pre ++ segSyms enc inp p k) ∨
              (QuietG n M f inp r.eoi (fun k => pre ++ segSyms enc inp p k) k ∧
               NoEolAt n M f inp r.eoi (fun k => pre ++ segSyms enc inp p k) k)))) ∧
          ∃ id uid u next push pop g, info j = .fin id uid u next push pop g ∧
            s.endState = true ∧ s.id = id ∧ s.uid = uid ∧
            s.endBol = (if f.bol then (if k = p then r.bol else inp[k - 1]? == some 10) else r.bol) ∧
            (f.recursive = true → s.pop = pop ∧ s.pushDfa = push) ∧
            s.startState = if f.multiState then next else r.state) ∨
       ((Stop pre ∨ (QuietG n M f inp r.eoi (fun k => pre ++ segSyms enc inp p k) p ∧
              NoEolAt n M f inp r.eoi (fun k => pre ++ segSyms enc inp p k) p)) ∧ endTok = p ∧
          ((s.endState = false ∧ ∀ j, j < n → ¬ M j []) ∨
           (∃ j, FirstM n M j [] ∧ ∃ id uid u next push pop g,
              info j = .fin id uid u next push pop g ∧ s.endState = true ∧ s.id = id ∧ s.uid = uid ∧
              s.endBol = r.bol ∧ s.pop = pop ∧ s.pushDfa = push ∧ s.startState = r.state)))) := by
  obtain ⟨s0, i1, i2, i3, i4, i5, i7, i6⟩ := A.init hinfo r.bol r.state
  -- the start row
  obtain ⟨pre, s1, b1, b2, b3, b5, b6, b4⟩ : ∃ pre s1, s0.bolStartState f d = .ok s1 ∧ At s1.ptr pre ∧ Same s0 s1 ∧
      s1.bol = s0.bol ∧ s1.eolState = s0.eolState ∧
      ((pre = [.bol] ∧ f.bol = true ∧ r.bol = true ∧ ∃ j w, j < n ∧ M j (.bol :: w)) ∨
       (pre = [] ∧ (f.bol = true → r.bol = true → (∀ j w, j < n → ¬ M j (.bol :: w)) ∨ Stop []))) := by
    unfold LuState.bolStartState
    by_cases hb : f.bol = true ∧ s0.bol = true
    · rw [if_pos hb]
      obtain ⟨b, c1, c2, c3⟩ := A.bol
      rw [c1]
      by_cases hb0 : b = 0
      · refine ⟨[], s0, ?_, by rw [i2]; exact A.ini, .refl _, rfl, rfl, .inr ⟨rfl, fun _ _ => c3 hb0⟩⟩
        simp [bind, Except.bind, hb0]
      · refine ⟨[.bol], { s0 with ptr := b }, ?_, c2 hb0, ⟨rfl, rfl, rfl, rfl, rfl, rfl, rfl⟩, rfl, rfl,
          .inl ⟨rfl, hb.1, by rw [← i3]; exact hb.2, A.live _ _ (c2 hb0)⟩⟩
        simp [bind, Except.bind, hb0]
    · rw [if_neg hb]
      refine ⟨[], s0, rfl, by rw [i2]; exact A.ini, .refl _, rfl, rfl, .inr ⟨rfl, fun h1 h2 => ?_⟩⟩
      rw [i3] at hb
      exact absurd ⟨h1, h2⟩ hb
  have hpre : pre = [] ∨ pre = [.bol] := by
    rcases b4 with ⟨h, _⟩ | ⟨h, _⟩
    · exact .inr h
    · exact .inl h
  have hfuel : r.eoi - p + 1 < scanFuel d r.eoi p := by
    unfold scanFuel
    have : (r.eoi - p + 1) * 1 ≤ (r.eoi - p + 1) * (d.rows.length + 1) := Nat.mul_le_mul_left _ (by omega)
    omega
  obtain ⟨s2, endTok, c1, c3⟩ := A.scan hstop hinfo f npos bytes inp r.eoi heoi hrows enc henc pre p
    (fun k => pre ++ segSyms enc inp p k) (fun _ => rfl) hlast (hline pre hpre) (hnext pre hpre)
    (scanFuel d r.eoi p) s1 p p (Nat.le_refl _) (by omega) hfuel (by simp only [segSyms_self, List.append_nil]; exact b2)
    (by rw [b6, i7]; omega)
  refine ⟨pre, s2, endTok, ?_, b4, ?_⟩
  · unfold Lexertl.attempt
    rw [hd]
    simp only [bind, Except.bind]
    rw [i1]
    simp only
    rw [b1]
    simp only
    unfold LuState.run at c1
    simp only [bind, Except.bind] at c1
    exact c1
  · rcases c3 with ⟨c5, c4, c3⟩ | ⟨k, j, k1, k2, k3, k4, k5⟩
    · right
      refine ⟨by simpa only [segSyms_self, List.append_nil] using c3, c4, ?_⟩
      obtain ⟨q1, q2, q3, q4, q5, q6, q7⟩ := b3.trans c5
      rcases i6 with ⟨i6, i7⟩ | ⟨j, j1, id, uid, u, next, push, pop, g, j4, j5, j6, j7, j8, j9⟩
      · left; exact ⟨q1.trans i6, i7⟩
      · right
        exact ⟨j, j1, id, uid, u, next, push, pop, g, j4, q1.trans j5, q2.trans j6, q3.trans j7,
          q4.trans i4, q5.trans j8, q6.trans j9, q7.trans i5⟩
    · left
      refine ⟨k, j, k1, k2, k3, k5, ?_⟩
      obtain ⟨id, uid, u, next, push, pop, g, h0, h1, h2, h3, h4, h5, h6, h7⟩ := k4.of_same b3
      refine ⟨id, uid, u, next, push, pop, g, h0, h1, h2, h3, ?_, ?_, ?_⟩
      · rw [h4, i4, b5, i3]
      · intro hr
        rw [h5, h6, hr]
        exact ⟨rfl, rfl⟩
      · rw [h7, i5]

/-- Single byte characters. -/
theorem GAutoP.nextOk1 (A : GAutoP d size n info M At Stop) (c : Nat) (hc : c < 256) (u : List Sym) :
    NextOkP 1 d n M At Stop (fun c => [.ch c]) c u := by
  intro s hs
  unfold LuState.nextChar
  rcases A.step _ _ c hs hc with ⟨r, h1, h2, h3⟩ | ⟨h1, h2⟩
  · left
    refine ⟨r, ?_, h2, h3⟩
    simp [h1, bind, Except.bind, h2]
  · right
    refine ⟨s.ptr, u, ?_, hs, ?_⟩
    · simp [h1, bind, Except.bind]
    · rcases h2 with h2 | h2
      · left
        intro j w hj
        have := h2 j w hj
        simpa using this
      · exact .inr h2

/-- Characters read byte by byte.  No rule may stop between the bytes. -/
theorem GAutoP.stepBytes (A : GAutoP d size n info M At Stop) (bs : List Nat) (hb : ∀ b ∈ bs, b < 256) :
    ∀ (ptr : Nat) (u : List Sym) (state : Nat), At ptr u → state = ptr ∨ bs ≠ [] →
    (∀ as b bs', bs = as ++ b :: bs' → as ≠ [] → ¬ Stop (u ++ as.map .ch)) →
    (∃ r, LuState.stepBytes d ptr bs state = .ok (r, r) ∧ r ≠ 0 ∧ At r (u ++ bs.map .ch)) ∨
    (∃ r u', LuState.stepBytes d ptr bs state = .ok (r, 0) ∧ At r u' ∧
      ((∀ j w, j < n → ¬ M j (u ++ bs.map .ch ++ w)) ∨ Stop u)) := by
  induction bs with
  | nil =>
    intro ptr u state h hs _
    left
    rcases hs with rfl | hs
    · exact ⟨state, rfl, A.pos _ _ h, by simpa using h⟩
    · exact absurd rfl hs
  | cons b bs ih =>
    intro ptr u state h _ hst
    unfold LuState.stepBytes
    rcases A.step _ _ b h (hb b (by simp)) with ⟨r, h1, h2, h3⟩ | ⟨h1, h2⟩
    · rw [h1]
      simp only [bind, Except.bind, if_neg h2]
      have := ih (fun x hx => hb x (by simp [hx])) r (u ++ [.ch b]) r h3 (.inl rfl) (by
        intro as b' bs' he hne
        have := hst (b :: as) b' bs' (by rw [he]; rfl) (by simp)
        simpa only [List.map_cons, List.append_assoc, List.singleton_append] using this)
      rcases this with ⟨r', g1, g2, g3⟩ | ⟨r', u', g1, g2, g3⟩
      · left
        refine ⟨r', g1, g2, ?_⟩
        simpa only [List.map_cons, List.append_assoc, List.singleton_append] using g3
      · right
        refine ⟨r', u', g1, g2, .inl ?_⟩
        rcases g3 with g3 | g3
        · simpa only [List.map_cons, List.append_assoc, List.singleton_append, List.cons_append, List.nil_append] using g3
        · cases bs with
          | nil =>
            rcases ih (by simp) r (u ++ [.ch b]) r h3 (.inl rfl) (by simp) with ⟨r2, k1, _⟩ | ⟨r2, u2, k1, _⟩
            · rw [k1] at g1
              simp only [Except.ok.injEq, Prod.mk.injEq] at g1
              simp only [LuState.stepBytes, Except.ok.injEq, Prod.mk.injEq] at k1
              omega
            · simp only [LuState.stepBytes, Except.ok.injEq, Prod.mk.injEq] at k1
              omega
          | cons b' bs => exact absurd g3 (hst [b] b' bs rfl (by simp))
    · right
      rw [h1]
      refine ⟨ptr, u, rfl, h, ?_⟩
      rcases h2 with h2 | h2
      · left
        intro j w hj
        have := h2 j (bs.map .ch ++ w) hj
        simpa only [List.map_cons, List.append_assoc, List.cons_append] using this
      · exact .inr h2

theorem GAutoP.nextOkN (A : GAutoP d size n info M At Stop) (bytes : Nat) (hn : 2 ≤ bytes) (c : Nat) (u : List Sym)
    (hst : ∀ as b bs', charBytes bytes c = as ++ b :: bs' → as ≠ [] → ¬ Stop (u ++ as.map .ch)) :
    NextOkP bytes d n M At Stop (fun c => (charBytes bytes c).map .ch) c u := by
  intro s hs
  unfold LuState.nextChar
  rw [if_neg (by omega)]
  have hne : charBytes bytes c ≠ [] := by
    intro h
    have := congrArg List.length h
    simp [charBytes] at this
    omega
  have := A.stepBytes (charBytes bytes c) (by
    intro b hb
    obtain ⟨i, _, rfl⟩ := List.mem_map.1 hb
    exact Nat.mod_lt _ (by decide)) s.ptr u 0 hs (.inr hne) hst
  unfold charBytes at *
  simp only
  rcases this with ⟨r, h1, h2, h3⟩ | ⟨r, u', h1, h2, h3⟩
  · left
    exact ⟨r, by rw [h1]; rfl, h2, h3⟩
  · right
    exact ⟨r, u', by rw [h1]; rfl, h2, h3⟩

end

end Lexertl
