import Verif.Proofs.Machine

/-
One match attempt of `lookup` on a table whose rows mean what `Auto` says.
-/
namespace Lexertl
open Spec

/-- Reading one input character: `enc c` are the symbols it stands for in the
table. -/
def NextOk (bytes : Nat) (d : Dfa) (n : Nat) (M At : Nat → List Sym → Prop) (enc : Nat → List Sym)
    (c : Nat) : Prop :=
  ∀ (s : LuState) (u : List Sym), At s.ptr u →
    (∃ r, s.nextChar bytes d c = .ok ({ s with ptr := r }, r) ∧ r ≠ 0 ∧ At r (u ++ enc c)) ∨
    (∃ r u', s.nextChar bytes d c = .ok ({ s with ptr := r }, 0) ∧ At r u' ∧
      ∀ j w, j < n → ¬ M j (u ++ enc c ++ w))

/-- Symbols of the input characters from `p` to `k`. -/
def segSyms (enc : Nat → List Sym) (inp : List Nat) (p k : Nat) : List Sym :=
  ((inp.drop p).take (k - p)).flatMap enc

theorem segSyms_self (enc : Nat → List Sym) (inp : List Nat) (p : Nat) : segSyms enc inp p p = [] := by
  simp [segSyms]

theorem segSyms_succ (enc : Nat → List Sym) (inp : List Nat) (p k : Nat) (h : p ≤ k) {c : Nat}
    (hc : inp[k]? = some c) : segSyms enc inp p (k + 1) = segSyms enc inp p k ++ enc c := by
  unfold segSyms
  rw [show k + 1 - p = (k - p) + 1 from by omega, List.take_add_one]
  rw [List.getElem?_drop, show p + (k - p) = k from by omega, hc]
  simp

theorem segSyms_split (enc : Nat → List Sym) (inp : List Nat) (p k l : Nat) (h : p ≤ k) (h' : k ≤ l) :
    segSyms enc inp p l = segSyms enc inp p k ++ segSyms enc inp k l := by
  unfold segSyms
  rw [← List.flatMap_append]
  congr 1
  rw [show inp.drop k = (inp.drop p).drop (k - p) by rw [List.drop_drop]; congr 1; omega]
  rw [show l - p = (k - p) + (l - k) from by omega, List.take_add]

/-- The fields of `s'` after ending a rule with end node `nd`; `b`: the next
character is at the start of a line. -/
def Hit (f : Flags) (nd : NodeData) (b : Bool) (s s' : LuState) : Prop :=
  ∃ id uid u next push pop g, nd = .fin id uid u next push pop g ∧
    s'.endState = true ∧ s'.id = id ∧ s'.uid = uid ∧
    s'.endBol = (if f.bol then b else s.endBol) ∧
    s'.pop = (if f.recursive then pop else s.pop) ∧
    s'.pushDfa = (if f.recursive then push else s.pushDfa) ∧
    s'.startState = (if f.multiState then next else s.startState)

/-- The result fields of `s` and `s'` agree. -/
def Same (s s' : LuState) : Prop :=
  s'.endState = s.endState ∧ s'.id = s.id ∧ s'.uid = s.uid ∧ s'.endBol = s.endBol ∧ s'.pop = s.pop ∧
    s'.pushDfa = s.pushDfa ∧ s'.startState = s.startState

theorem Same.refl (s : LuState) : Same s s := ⟨rfl, rfl, rfl, rfl, rfl, rfl, rfl⟩

theorem Same.trans {a b c : LuState} (h : Same a b) (k : Same b c) : Same a c := by
  obtain ⟨h1, h2, h3, h4, h5, h6, h7⟩ := h
  obtain ⟨k1, k2, k3, k4, k5, k6, k7⟩ := k
  exact ⟨k1.trans h1, k2.trans h2, k3.trans h3, k4.trans h4, k5.trans h5, k6.trans h6, k7.trans h7⟩

theorem Hit.same {f : Flags} {nd : NodeData} {b : Bool} {s s' t : LuState} (h : Hit f nd b s s')
    (k : Same s' t) : Hit f nd b s t := by
  obtain ⟨id, uid, u, next, push, pop, g, h0, h1, h2, h3, h4, h5, h6, h7⟩ := h
  obtain ⟨k1, k2, k3, k4, k5, k6, k7⟩ := k
  exact ⟨id, uid, u, next, push, pop, g, h0, k1.trans h1, k2.trans h2, k3.trans h3, k4.trans h4,
    k5.trans h5, k6.trans h6, k7.trans h7⟩

theorem Hit.of_same {f : Flags} {nd : NodeData} {b : Bool} {s s' t : LuState} (k : Same t s)
    (h : Hit f nd b s s') : Hit f nd b t s' := by
  obtain ⟨id, uid, u, next, push, pop, g, h0, h1, h2, h3, h4, h5, h6, h7⟩ := h
  obtain ⟨k1, k2, k3, k4, k5, k6, k7⟩ := k
  exact ⟨id, uid, u, next, push, pop, g, h0, h1, h2, h3, by rw [h4, k4], by rw [h5, k5], by rw [h6, k6],
    by rw [h7, k7]⟩

/-- A later end overrides an earlier one. -/
theorem Hit.of_hit {f : Flags} {nd nd' : NodeData} {b b' : Bool} {s t s' : LuState}
    (k : Hit f nd' b' s t) (h : Hit f nd b t s') : Hit f nd b s s' := by
  obtain ⟨id, uid, u, next, push, pop, g, h0, h1, h2, h3, h4, h5, h6, h7⟩ := h
  obtain ⟨_, _, _, _, _, _, _, _, _, _, _, k4, k5, k6, k7⟩ := k
  refine ⟨id, uid, u, next, push, pop, g, h0, h1, h2, h3, ?_, ?_, ?_, ?_⟩
  · rw [h4, k4]; split <;> rfl
  · rw [h5, k5]; split <;> rfl
  · rw [h6, k6]; split <;> rfl
  · rw [h7, k7]; split <;> rfl

section
variable {d : Dfa} {size n : Nat} {info : Nat → NodeData} {M At : Nat → List Sym → Prop}

theorem cells_none (size c : Nat) : cellOf [newRow size none] 0 c = 0 := by
  rw [cellOf_single]; exact getElem?_replicate_zero _ _

theorem cells_fin (size a b c e f : Nat) (p : Bool) (g : Greedy) :
    cellOf [newRow size (some (.fin a b c e f p g))] 0 ixEnd ≠ 0 ∧
    hasBit (cellOf [newRow size (some (.fin a b c e f p g))] 0 ixEnd) bitPop = p ∧
    cellOf [newRow size (some (.fin a b c e f p g))] 0 ixId = a ∧
    cellOf [newRow size (some (.fin a b c e f p g))] 0 ixUserId = b ∧
    cellOf [newRow size (some (.fin a b c e f p g))] 0 ixPushDfa = f ∧
    cellOf [newRow size (some (.fin a b c e f p g))] 0 ixNextDfa = e := by
  simp only [cellOf_single, newRow]
  refine ⟨?_, ?_, rfl, rfl, rfl, rfl⟩
  · simp only [ixEnd, List.cons_append, List.getElem?_cons_zero, Option.getD_some, bitEnd]; omega
  · simp only [ixEnd, List.cons_append, List.getElem?_cons_zero, Option.getD_some]
    cases g <;> cases p <;> decide

/-- `end_state` in a row. -/
theorem Auto.endStep (A : Auto d size n info M At)
    (hinfo : ∀ j, j < n → ∃ a b c d e f g, info j = .fin a b c d e f g) (f : Flags) (s : LuState)
    (u : List Sym) (hs : At s.ptr u) (endTok curr : Nat) :
    ∃ s' endTok', s.endStep f d endTok curr = .ok (s', endTok') ∧ s'.ptr = s.ptr ∧ s'.bol = s.bol ∧
      s'.eolState = s.eolState ∧
      (((∀ j, j < n → ¬ M j u) ∧ endTok' = endTok ∧ s' = s) ∨
       (∃ j, j < n ∧ M j u ∧ (∀ i, i < j → ¬ M i u) ∧ endTok' = curr ∧ Hit f (info j) s.bol s s')) := by
  obtain ⟨e, h1, h2⟩ := A.fin _ _ hs
  unfold LuState.endStep
  rw [h1 ixEnd (by decide)]
  rcases h2 with ⟨rfl, h2⟩ | ⟨j, hj, h2, h3, rfl⟩
  · refine ⟨s, endTok, ?_, rfl, rfl, rfl, .inl ⟨h2, rfl, rfl⟩⟩
    simp only [cells_none, bind, Except.bind, ne_eq, not_true_eq_false, if_false]
  · obtain ⟨a, b, c, e, k, p, g, hi⟩ := hinfo j hj
    rw [hi] at h1
    rw [hi]
    obtain ⟨c1, c2, c3, c4, c5, c6⟩ := cells_fin size a b c e k p g
    refine ⟨⟨s.ptr, true, a, b, s.bol, if f.bol then s.bol else s.endBol, s.eolState,
      if f.multiState then e else s.startState, if f.recursive then p else s.pop,
      if f.recursive then k else s.pushDfa⟩, curr, ?_, ?_⟩
    · simp only [bind, Except.bind]
      rw [if_pos c1, h1 ixId (by decide), h1 ixUserId (by decide), h1 ixPushDfa (by decide),
        h1 ixNextDfa (by decide), c2, c3, c4, c5, c6]
    · exact ⟨rfl, rfl, rfl, .inr ⟨j, hj, h2, h3, rfl, a, b, c, e, k, p, g, hi, rfl, rfl, rfl, rfl, rfl, rfl, rfl⟩⟩

/-- `is_eol` does nothing in a table without `$`. -/
theorem Auto.isEol (A : Auto d size n info M At) (f : Flags) (s : LuState) (u : List Sym)
    (hs : At s.ptr u) (c : Option Nat) :
    ∃ e, s.isEol f d c = .ok ({ s with eolState := e }, false) := by
  unfold LuState.isEol
  split
  · rw [A.eol _ _ hs]
    exact ⟨0, by simp [bind, Except.bind]⟩
  · exact ⟨s.eolState, rfl⟩

/-- The scanning loop finds the longest match. -/
theorem Auto.scan (A : Auto d size n info M At) (hinfo : ∀ j, j < n → ∃ a b c d e f g, info j = .fin a b c d e f g)
    (f : Flags) (bytes : Nat) (inp : List Nat) (eoi : Nat) (heoi : eoi ≤ inp.length)
    (enc : Nat → List Sym) (pre : List Sym) (p : Nat)
    (hnext : ∀ k c, p ≤ k → k < eoi → inp[k]? = some c → NextOk bytes d n M At enc c)
    (fuel : Nat) : ∀ (s : LuState) (curr endTok : Nat), p ≤ curr → curr ≤ eoi → eoi - curr < fuel →
    At s.ptr (pre ++ segSyms enc inp p curr) →
    ∃ s' curr' endTok', s.scan f bytes d inp eoi fuel curr endTok = .ok (s', curr', endTok') ∧
      (∃ u, At s'.ptr u) ∧
      (((∀ k, curr < k → k ≤ eoi → ∀ j, j < n → ¬ M j (pre ++ segSyms enc inp p k)) ∧
          endTok' = endTok ∧ Same s s') ∨
       (∃ k j, curr < k ∧ k ≤ eoi ∧ j < n ∧ M j (pre ++ segSyms enc inp p k) ∧
          (∀ i, i < j → ¬ M i (pre ++ segSyms enc inp p k)) ∧
          (∀ k', k < k' → k' ≤ eoi → ∀ j, j < n → ¬ M j (pre ++ segSyms enc inp p k')) ∧
          endTok' = k ∧ Hit f (info j) (inp[k - 1]? == some 10) s s')) := by
  induction fuel with
  | zero => intro s curr endTok _ _ h; omega
  | succ fuel ih =>
    intro s curr endTok hp hc hf hat
    unfold LuState.scan
    by_cases he : curr = eoi
    · rw [if_pos he]
      refine ⟨s, curr, endTok, rfl, ⟨_, hat⟩, .inl ⟨?_, rfl, .refl s⟩⟩
      intro k h1 h2; omega
    · rw [if_neg he]
      have hlt : curr < inp.length := by omega
      have hget : inp[curr]? = some inp[curr] := List.getElem?_eq_getElem hlt
      have hch : charAt inp eoi curr = .ok inp[curr] := by
        unfold charAt; rw [if_pos (by omega), hget]
      obtain ⟨e, he1⟩ := A.isEol f s _ hat (some inp[curr])
      simp only [hch, bind, Except.bind, he1, Bool.false_eq_true, if_false]
      have o1 : p ≤ curr + 1 := by omega
      have o2 : curr + 1 ≤ eoi := by omega
      have o3 : eoi - (curr + 1) < fuel := by omega
      have hseg := segSyms_succ enc inp p curr hp hget
      rcases hnext curr _ hp (by omega) hget { s with eolState := e } _ hat with
        ⟨r, n1, n2, n3⟩ | ⟨r, u', n1, n2, n3⟩
      · -- a transition
        rw [n1]
        simp only [if_neg n2]
        rw [List.append_assoc, ← hseg] at n3
        generalize hs1 : (if f.bol then
          ({ ptr := r, endState := s.endState, id := s.id, uid := s.uid, bol := inp[curr] == 10, endBol := s.endBol, eolState := e, startState := s.startState, pop := s.pop, pushDfa := s.pushDfa } : LuState)
          else { ptr := r, endState := s.endState, id := s.id, uid := s.uid, bol := s.bol, endBol := s.endBol, eolState := e, startState := s.startState, pop := s.pop, pushDfa := s.pushDfa }) = s1
        have hsame : Same s s1 ∧ s1.ptr = r ∧ (f.bol = true → s1.bol = (inp[curr] == 10)) := by
          subst hs1
          cases f.bol <;> exact ⟨⟨rfl, rfl, rfl, rfl, rfl, rfl, rfl⟩, rfl, by simp⟩
        obtain ⟨q1, q2, q3⟩ := hsame
        obtain ⟨s2, t2, e1, e2, e3, e4, e5⟩ := A.endStep hinfo f s1 _ (by rw [q2]; exact n3) endTok (curr + 1)
        rw [e1]
        simp only
        obtain ⟨s', curr', endTok', r1, r2, r3⟩ := ih s2 (curr + 1) t2 o1 o2 o3
          (by rw [e2, q2]; exact n3)
        refine ⟨s', curr', endTok', r1, r2, ?_⟩
        have hb : ∀ nd, Hit f nd s1.bol s1 s2 → Hit f nd (inp[curr + 1 - 1]? == some 10) s1 s2 := by
          rintro nd ⟨id, uid, u, next, push, pop, g, h0, h1, h2, h3, h4, h5⟩
          refine ⟨id, uid, u, next, push, pop, g, h0, h1, h2, h3, ?_, h5⟩
          rw [h4]
          cases hfb : f.bol with
          | false => rfl
          | true => rw [q3 hfb, Nat.add_sub_cancel, hget]; rfl
        rcases r3 with ⟨r3, r4, r5⟩ | ⟨k, j, k1, k2, k3, k4, k5, k6, k7, k8⟩
        · rcases e5 with ⟨e5, e6, e7⟩ | ⟨j, j1, j2, j3, j4, j5⟩
          · left
            subst e7
            refine ⟨fun k h1 h2 j hj => ?_, by rw [r4, e6], q1.trans r5⟩
            by_cases hk : k = curr + 1
            · subst hk; exact e5 j hj
            · exact r3 k (by omega) h2 j hj
          · right
            refine ⟨curr + 1, j, by omega, by omega, j1, j2, j3, r3, by rw [r4, j4], ?_⟩
            exact ((hb _ j5).same r5).of_same q1
        · right
          refine ⟨k, j, by omega, k2, k3, k4, k5, k6, k7, ?_⟩
          rcases e5 with ⟨_, _, e7⟩ | ⟨j', _, _, _, _, j5⟩
          · subst e7; exact k8.of_same q1
          · exact Hit.of_same q1 (j5.of_hit k8)
      · -- no transition
        rw [n1]
        simp only [if_true]
        generalize hs1 : (if f.bol then
          ({ ptr := r, endState := s.endState, id := s.id, uid := s.uid, bol := inp[curr] == 10, endBol := s.endBol, eolState := e, startState := s.startState, pop := s.pop, pushDfa := s.pushDfa } : LuState)
          else { ptr := r, endState := s.endState, id := s.id, uid := s.uid, bol := s.bol, endBol := s.endBol, eolState := e, startState := s.startState, pop := s.pop, pushDfa := s.pushDfa }) = s1
        have hsame : Same s s1 ∧ s1.ptr = r := by
          subst hs1
          cases f.bol <;> exact ⟨⟨rfl, rfl, rfl, rfl, rfl, rfl, rfl⟩, rfl⟩
        obtain ⟨q1, q2⟩ := hsame
        obtain ⟨e', he2⟩ := A.isEol f s1 _ (by rw [q2]; exact n2) none
        rw [he2]
        refine ⟨{ s1 with eolState := e' }, curr, endTok, rfl, ⟨u', by show At s1.ptr u'; rw [q2]; exact n2⟩,
          .inl ⟨?_, rfl, q1⟩⟩
        intro k h1 h2 j hj hm
        refine n3 j (segSyms enc inp (curr + 1) k) hj ?_
        rw [List.append_assoc, List.append_assoc, ← List.append_assoc (segSyms enc inp p curr), ← hseg,
          ← segSyms_split enc inp p (curr + 1) k (by omega) (by omega)]
        exact hm


/-- `lookup_state` before the first character: row 1. -/
theorem Auto.init (A : Auto d size n info M At)
    (hinfo : ∀ j, j < n → ∃ a b c d e f g, info j = .fin a b c d e f g) (bol : Bool) (state : Nat) :
    ∃ s, LuState.init d bol state = .ok s ∧ s.ptr = 1 ∧ s.bol = bol ∧ s.endBol = bol ∧
      s.startState = state ∧
      ((s.endState = false ∧ ∀ j, j < n → ¬ M j []) ∨
       (∃ j, j < n ∧ M j [] ∧ (∀ i, i < j → ¬ M i []) ∧ ∃ id uid u next push pop g,
          info j = .fin id uid u next push pop g ∧ s.endState = true ∧ s.id = id ∧ s.uid = uid ∧
          s.pop = pop ∧ s.pushDfa = push)) := by
  obtain ⟨e, h1, h2⟩ := A.fin _ _ A.ini
  have hi : LuState.init d bol state = .ok
      ⟨1, cellOf [newRow size e] 0 ixEnd != 0, cellOf [newRow size e] 0 ixId,
        cellOf [newRow size e] 0 ixUserId, bol, bol, 0, state,
        hasBit (cellOf [newRow size e] 0 ixEnd) bitPop, cellOf [newRow size e] 0 ixPushDfa⟩ := by
    unfold LuState.init
    rw [h1 ixEnd (by decide), h1 ixId (by decide), h1 ixUserId (by decide), h1 ixPushDfa (by decide)]
    rfl
  refine ⟨_, hi, rfl, rfl, rfl, rfl, ?_⟩
  rcases h2 with ⟨rfl, h2⟩ | ⟨j, hj, h2, h3, rfl⟩
  · left
    refine ⟨?_, h2⟩
    simp only [cells_none]; rfl
  · right
    obtain ⟨a, b, c, e, k, p, g, hi⟩ := hinfo j hj
    rw [hi]
    obtain ⟨c1, c2, c3, c4, c5, c6⟩ := cells_fin size a b c e k p g
    exact ⟨j, hj, h2, h3, a, b, c, e, k, p, g, hi, by simpa using c1, c3, c4, c2, c5⟩

/-- One match attempt. -/
theorem Auto.attempt (A : Auto d size n info M At)
    (hinfo : ∀ j, j < n → ∃ a b c d e f g, info j = .fin a b c d e f g)
    (f : Flags) (npos bytes : Nat) (sm : Internals) (inp : List Nat) (r : Results) (p : Nat)
    (hd : sm.dfaAt r.state = .ok d) (hp : p < r.eoi) (heoi : r.eoi ≤ inp.length) (enc : Nat → List Sym)
    (hnext : ∀ k c, p ≤ k → k < r.eoi → inp[k]? = some c → NextOk bytes d n M At enc c) :
    ∃ pre s endTok, Lexertl.attempt f npos bytes sm inp r p p = .ok (s, endTok) ∧
      ((pre = [.bol] ∧ f.bol = true ∧ r.bol = true ∧ ∃ j w, j < n ∧ M j (.bol :: w)) ∨
       (pre = [] ∧ (f.bol = true → r.bol = true → ∀ j w, j < n → ¬ M j (.bol :: w)))) ∧
      ((∃ k j, p < k ∧ k ≤ r.eoi ∧ j < n ∧ M j (pre ++ segSyms enc inp p k) ∧
          (∀ i, i < j → ¬ M i (pre ++ segSyms enc inp p k)) ∧
          (∀ k', k < k' → k' ≤ r.eoi → ∀ j, j < n → ¬ M j (pre ++ segSyms enc inp p k')) ∧
          endTok = k ∧ ∃ id uid u next push pop g, info j = .fin id uid u next push pop g ∧
            s.endState = true ∧ s.id = id ∧ s.uid = uid ∧
            s.endBol = (if f.bol then inp[k - 1]? == some 10 else r.bol) ∧
            (f.recursive = true → s.pop = pop ∧ s.pushDfa = push) ∧
            s.startState = if f.multiState then next else r.state) ∨
       ((∀ k, p < k → k ≤ r.eoi → ∀ j, j < n → ¬ M j (pre ++ segSyms enc inp p k)) ∧ endTok = p ∧
          ((s.endState = false ∧ ∀ j, j < n → ¬ M j []) ∨
           (∃ j, j < n ∧ M j [] ∧ (∀ i, i < j → ¬ M i []) ∧ ∃ id uid u next push pop g,
              info j = .fin id uid u next push pop g ∧ s.endState = true ∧ s.id = id ∧ s.uid = uid ∧
              s.endBol = r.bol ∧ s.pop = pop ∧ s.pushDfa = push ∧ s.startState = r.state)))) := by
  obtain ⟨s0, i1, i2, i3, i4, i5, i6⟩ := A.init hinfo r.bol r.state
  -- the start row
  obtain ⟨pre, s1, b1, b2, b3, b4⟩ : ∃ pre s1, s0.bolStartState f d = .ok s1 ∧ At s1.ptr pre ∧ Same s0 s1 ∧
      ((pre = [.bol] ∧ f.bol = true ∧ r.bol = true ∧ ∃ j w, j < n ∧ M j (.bol :: w)) ∨
       (pre = [] ∧ (f.bol = true → r.bol = true → ∀ j w, j < n → ¬ M j (.bol :: w)))) := by
    unfold LuState.bolStartState
    by_cases hb : f.bol = true ∧ s0.bol = true
    · rw [if_pos hb]
      obtain ⟨b, c1, c2, c3⟩ := A.bol
      rw [c1]
      by_cases hb0 : b = 0
      · refine ⟨[], s0, ?_, by rw [i2]; exact A.ini, .refl _, .inr ⟨rfl, fun _ _ => c3 hb0⟩⟩
        simp [bind, Except.bind, hb0]
      · refine ⟨[.bol], { s0 with ptr := b }, ?_, (c2 hb0).1, ⟨rfl, rfl, rfl, rfl, rfl, rfl, rfl⟩,
          .inl ⟨rfl, hb.1, by rw [← i3]; exact hb.2, (c2 hb0).2⟩⟩
        simp [bind, Except.bind, hb0]
    · rw [if_neg hb]
      refine ⟨[], s0, rfl, by rw [i2]; exact A.ini, .refl _, .inr ⟨rfl, fun h1 h2 => ?_⟩⟩
      rw [i3] at hb
      exact absurd ⟨h1, h2⟩ hb
  have hfuel : r.eoi - p < scanFuel d r.eoi p := by
    unfold scanFuel
    have : (r.eoi - p + 1) * 1 ≤ (r.eoi - p + 1) * (d.rows.length + 1) := Nat.mul_le_mul_left _ (by omega)
    omega
  obtain ⟨s2, curr, endTok, c1, ⟨u, c2⟩, c3⟩ := A.scan hinfo f bytes inp r.eoi heoi enc pre p hnext
    (scanFuel d r.eoi p) s1 p p (Nat.le_refl _) (by omega) hfuel (by rw [segSyms_self, List.append_nil]; exact b2)
  have hcheck : ∃ e, s2.checkEol f npos d endTok curr r.eoi = .ok ({ s2 with eolState := e }, endTok) := by
    unfold LuState.checkEol
    split
    · rw [A.eol _ _ c2]
      exact ⟨0, by simp [bind, Except.bind]⟩
    · exact ⟨s2.eolState, rfl⟩
  obtain ⟨e, hcheck⟩ := hcheck
  refine ⟨pre, { s2 with eolState := e }, endTok, ?_, b4, ?_⟩
  · unfold Lexertl.attempt
    rw [hd]
    simp only [bind, Except.bind]
    rw [i1]
    simp only
    rw [b1]
    simp only
    rw [c1]
    exact hcheck
  · rcases c3 with ⟨c3, c4, c5⟩ | ⟨k, j, k1, k2, k3, k4, k5, k6, k7, k8⟩
    · right
      refine ⟨c3, c4, ?_⟩
      obtain ⟨q1, q2, q3, q4, q5, q6, q7⟩ := b3.trans c5
      rcases i6 with ⟨i6, i7⟩ | ⟨j, j1, j2, j3, id, uid, u, next, push, pop, g, j4, j5, j6, j7, j8, j9⟩
      · left; exact ⟨q1.trans i6, i7⟩
      · right
        exact ⟨j, j1, j2, j3, id, uid, u, next, push, pop, g, j4, q1.trans j5, q2.trans j6, q3.trans j7,
          q4.trans i4, q5.trans j8, q6.trans j9, q7.trans i5⟩
    · left
      obtain ⟨id, uid, u, next, push, pop, g, h0, h1, h2, h3, h4, h5, h6, h7⟩ := k8.of_same b3
      refine ⟨k, j, k1, k2, k3, k4, k5, k6, k7, id, uid, u, next, push, pop, g, h0, h1, h2, h3, ?_, ?_, ?_⟩
      · show s2.endBol = _
        rw [h4, i4]
      · intro hr
        show s2.pop = _ ∧ s2.pushDfa = _
        rw [h5, h6, hr]
        exact ⟨rfl, rfl⟩
      · show s2.startState = _
        rw [h7, i5]

/-- Single byte characters. -/
theorem Auto.nextOk1 (A : Auto d size n info M At) (c : Nat) (hc : c < 256) :
    NextOk 1 d n M At (fun c => [.ch c]) c := by
  intro s u hs
  unfold LuState.nextChar
  rcases A.step _ _ c hs hc with ⟨r, h1, h2, h3⟩ | ⟨h1, h2⟩
  · left
    refine ⟨r, ?_, h2, h3⟩
    simp [h1, bind, Except.bind, h2]
  · right
    refine ⟨s.ptr, u, ?_, hs, fun j w hj => ?_⟩
    · simp [h1, bind, Except.bind]
    · have := h2 j w hj
      simpa using this

/-- Characters read byte by byte. -/
theorem Auto.stepBytes (A : Auto d size n info M At) (bs : List Nat) (hb : ∀ b ∈ bs, b < 256) :
    ∀ (ptr : Nat) (u : List Sym) (state : Nat), At ptr u → state = ptr ∨ bs ≠ [] →
    (∃ r, LuState.stepBytes d ptr bs state = .ok (r, r) ∧ r ≠ 0 ∧ At r (u ++ bs.map .ch)) ∨
    (∃ r u', LuState.stepBytes d ptr bs state = .ok (r, 0) ∧ At r u' ∧
      ∀ j w, j < n → ¬ M j (u ++ bs.map .ch ++ w)) := by
  induction bs with
  | nil =>
    intro ptr u state h hs
    left
    rcases hs with rfl | hs
    · exact ⟨state, rfl, A.pos _ _ h, by simpa using h⟩
    · exact absurd rfl hs
  | cons b bs ih =>
    intro ptr u state h _
    unfold LuState.stepBytes
    rcases A.step _ _ b h (hb b (by simp)) with ⟨r, h1, h2, h3⟩ | ⟨h1, h2⟩
    · rw [h1]
      simp only [bind, Except.bind, if_neg h2]
      have := ih (fun x hx => hb x (by simp [hx])) r (u ++ [.ch b]) r h3 (.inl rfl)
      simpa only [List.map_cons, List.append_assoc, List.singleton_append, List.cons_append, List.nil_append] using this
    · right
      rw [h1]
      refine ⟨ptr, u, rfl, h, fun j w hj => ?_⟩
      have := h2 j (bs.map .ch ++ w) hj
      simpa only [List.map_cons, List.append_assoc, List.cons_append] using this

/-- Bytes of a character, most significant first. -/
def charBytes (bytes c : Nat) : List Nat := (List.range bytes).map fun i => c / 256 ^ (bytes - 1 - i) % 256

theorem Auto.nextOkN (A : Auto d size n info M At) (bytes : Nat) (hn : 2 ≤ bytes) (c : Nat) :
    NextOk bytes d n M At (fun c => (charBytes bytes c).map .ch) c := by
  intro s u hs
  unfold LuState.nextChar
  rw [if_neg (by omega)]
  have hne : charBytes bytes c ≠ [] := by
    intro h
    have := congrArg List.length h
    simp [charBytes] at this
    omega
  have := A.stepBytes (charBytes bytes c) (by
    intro b hb
    obtain ⟨i, _, rfl⟩ := List.mem_map.1 hb
    exact Nat.mod_lt _ (by decide)) s.ptr u 0 hs (.inr hne)
  unfold charBytes at *
  simp only
  rcases this with ⟨r, h1, h2, h3⟩ | ⟨r, u', h1, h2, h3⟩
  · left
    exact ⟨r, by rw [h1]; rfl, h2, h3⟩
  · right
    exact ⟨r, u', by rw [h1]; rfl, h2, h3⟩

end

end Lexertl
