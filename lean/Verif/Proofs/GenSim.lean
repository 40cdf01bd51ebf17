import Verif.Proofs.Flags

/-
The generated function does what `lookup` does, for machines without end of line rows.
-/
namespace Lexertl.Gen
open Spec

/-- What the generated function does where `lookup` has outcome `x`. -/
def SimR {α β : Type} (R : α → β → Prop) : M α → M β → Prop
  | .ok a, y => ∃ b, y = .ok b ∧ R a b
  | .error .fuel, y => y = .error .fuel
  | .error (.throw _), y => ∃ m, y = .error (.ub m)
  | .error (.ub _), _ => True

theorem SimR.bind {α β γ δ : Type} {R : α → β → Prop} {S : γ → δ → Prop} {x : M α} {y : M β} {g : α → M γ}
    {h : β → M δ} (r : SimR R x y) (k : ∀ a b, R a b → SimR S (g a) (h b)) : SimR S (x >>= g) (y >>= h) := by
  cases x with
  | ok a =>
    obtain ⟨b, rfl, hb⟩ := r
    exact k a b hb
  | error e =>
    cases e with
    | fuel =>
      have : y = .error .fuel := r
      subst this; rfl
    | throw m =>
      obtain ⟨m', rfl⟩ := r
      exact ⟨m', rfl⟩
    | ub m => trivial

theorem SimR.ok {α β : Type} {R : α → β → Prop} {a : α} {b : β} (h : R a b) : SimR R (.ok a) (.ok b) := ⟨b, rfl, h⟩

theorem SimR.refl {α : Type} (x : M α) (h : ∀ m, x ≠ .error (.throw m)) : SimR (fun a b => a = b) x x := by
  cases x with
  | ok a => exact ⟨a, rfl, rfl⟩
  | error e =>
    cases e with
    | fuel => rfl
    | throw m => exact absurd rfl (h m)
    | ub m => trivial

theorem flatten_get {w : Nat} : ∀ (rows : List Row), (∀ row ∈ rows, row.length = w) → ∀ (r c : Nat), c < w →
    rows.flatten[r * w + c]? = (rows[r]?).bind (·[c]?) := by
  intro rows
  induction rows with
  | nil => intro _ r c _; simp
  | cons row rows ih =>
    intro h r c hc
    have hl : row.length = w := h row (by simp)
    rw [List.flatten_cons]
    cases r with
    | zero =>
      rw [Nat.zero_mul, Nat.zero_add, List.getElem?_append_left (by omega)]
      simp
    | succ r =>
      rw [List.getElem?_append_right (by rw [hl, Nat.succ_mul]; omega), hl,
        show (r + 1) * w + c - w = r * w + c by rw [Nat.succ_mul]; omega, ih (fun x hx => h x (by simp [hx])) r c hc]
      simp

theorem flatten_len {w : Nat} : ∀ (rows : List Row), (∀ row ∈ rows, row.length = w) → rows.flatten.length = rows.length * w := by
  intro rows
  induction rows with
  | nil => intro _; simp
  | cons row rows ih =>
    intro h
    rw [List.flatten_cons, List.length_append, ih (fun x hx => h x (by simp [hx])), h row (by simp), List.length_cons, Nat.succ_mul]
    omega

/-- A generated table and the table it was made from. -/
structure Tab (pointers : Bool) (d : Dfa) (e : GenDfa) : Prop where
  lookup : e.lookup = d.lookup
  pos : 7 ≤ e.width
  col : ∀ col ∈ d.lookup, 6 ≤ col ∧ col < e.width
  dead : ∀ p v, 0 < p → getCell d.rows p 6 = .ok v → v = 0
  cell : ∀ r c v, getCell d.rows r c = .ok v → c < e.width ∧ e.cells[r * e.width + c]? = some (genCell pointers e.width r c v)

theorem genTable_cell {pointers : Bool} {w : Nat} {rows : List Row} (h7 : 7 ≤ w) (h : ∀ row ∈ rows, row.length = w)
    {r c v : Nat} (hv : getCell rows r c = .ok v) :
    c < w ∧ (genTable pointers w rows.flatten)[r * w + c]? = some (genCell pointers w r c v) := by
  obtain ⟨row, h1, h2⟩ := getCell_ok hv
  have hc : c < w := by
    rw [← h row (List.mem_of_getElem? h1)]
    exact (List.getElem?_eq_some_iff.1 h2).1
  refine ⟨hc, ?_⟩
  unfold genTable
  rw [flatten_len rows h, Nat.mul_div_cancel _ (by omega), ← flatten_len rows h, List.take_length, List.getElem?_mapIdx,
    flatten_get rows h r c hc, h1]
  simp only [Option.bind_some, h2, Option.map_some]
  rw [show (r * w + c) / w = r by rw [Nat.mul_comm, Nat.mul_add_div (by omega), Nat.div_eq_of_lt hc, Nat.add_zero],
    show (r * w + c) % w = c by rw [Nat.mul_comm, Nat.mul_add_mod, Nat.mod_eq_of_lt hc]]

theorem tab {npos : Nat} {sm : Internals} (M : Machine npos sm) (pointers : Bool) {i : Nat} {d : Dfa} (hd : sm.dfaAt i = .ok d) :
    ∃ e, (generate sm pointers).dfas[i]? = some e ∧ Tab pointers d e := by
  unfold Internals.dfaAt at hd
  split at hd
  · rename_i l rows h1 h2
    cases hd
    have hi : i < sm.dfa.length := (List.getElem?_eq_some_iff.1 h2).1
    have ha : sm.alphabet[i]? = some (sm.alphabet[i]'(by rw [M.states.2]; exact hi)) := List.getElem?_eq_getElem _
    have hw := M.alphabet i _ rows ha h2
    obtain ⟨T, _⟩ := M.table i l rows h1 h2
    obtain ⟨a, a1, a2, a3⟩ := T.width
    dsimp only at a2 a3
    have e : a = sm.alphabet[i]'(by rw [M.states.2]; exact hi) := by
      have h0 : 0 < rows.length := by have := T.two; dsimp only at this; omega
      rw [← a2 _ (List.getElem_mem h0), hw _ (List.getElem_mem h0)]
    refine ⟨⟨l, a, genTable pointers a rows.flatten⟩, ?_, ?_, ?_, ?_, ?_, ?_⟩
    · show (genTables sm pointers)[i]? = _
      unfold genTables
      rw [List.getElem?_map, List.getElem?_range (by rw [M.states.1]; exact hi)]
      simp only [Option.map_some, List.getD_eq_getElem?_getD, h1, h2, ha, Option.getD_some, e]
    · rfl
    · exact a1
    · exact a3
    · intro p v hp hv
      obtain ⟨row, g1, g2⟩ := getCell_ok hv
      exact T.dead p row v hp g1 g2
    · intro r c v hv
      exact genTable_cell a1 a2 hv
  · cases hd

variable {g : GenCode} {d : Dfa} {e : GenDfa} {f : Flags} {npos : Nat} {bytes : Nat}

/-- Reading a number. -/
theorem Tab.num (T : Tab g.pointers d e) {p c v : Nat} (hp : 0 < p) (hc : c < 7) (h : getCell d.rows p c = .ok v) :
    GenCode.cellAt e (p * e.width + c) = .ok (.num v) := by
  have hn : genCell g.pointers e.width p c v = .num v := by
    unfold genCell
    split
    · split
      · rw [if_neg (by omega)]
      · rw [if_pos (by unfold ixTransitions; omega)]
    · rfl
  rw [GenCode.cellAt, (T.cell p c v h).2, hn]

/-- Reading a transition. -/
theorem Tab.trans (T : Tab g.pointers d e) {p c v : Nat} (hp : 0 < p) (hc : 6 ≤ c) (h : getCell d.rows p c = .ok v) :
    ∃ x, GenCode.cellAt e (p * e.width + c) = .ok x ∧ GenCode.isSet x = (v != 0) ∧
      (v ≠ 0 → g.jump e x = .ok (v * e.width)) := by
  have h6 : c = 6 → v = 0 := fun hc6 => by subst hc6; exact T.dead p v hp h
  refine ⟨_, by rw [GenCode.cellAt, (T.cell p c v h).2], ?_⟩
  unfold genCell
  cases hg : g.pointers with
  | false =>
    simp only [Bool.false_eq_true, if_false]
    refine ⟨rfl, fun _ => by unfold GenCode.jump; rw [hg]⟩
  | true =>
    simp only [if_true]
    rw [if_neg (by omega)]
    split
    · have : v = 0 := h6 (by unfold ixTransitions at *; omega)
      subst this
      exact ⟨rfl, fun h => absurd rfl h⟩
    · split
      · rename_i h0
        subst h0
        exact ⟨rfl, fun h => absurd rfl h⟩
      · rename_i h0
        refine ⟨by simp [GenCode.isSet, h0], fun _ => by unfold GenCode.jump; rw [hg]⟩

/-- The flags of the generated code, without `$`. -/
structure Exact (g : GenCode) (f : Flags) : Prop where
  eol : g.feat.eol = false
  flags : f = ⟨g.feat.bol, false, g.feat.multi, g.feat.recursive, true⟩

/-- A number of an end row. -/
def FromEnd (d : Dfa) (s : LuState) : Prop :=
  s.endState = true → ∃ p row, 0 < p ∧ d.rows[p]? = some row ∧ row[ixEnd]? ≠ some 0 ∧ row[ixId]? = some s.id

/-- The variables of `lookup` and those of the generated function. -/
structure VR (g : GenCode) (d : Dfa) (e : GenDfa) (s t : LuState) : Prop where
  pos : 0 < s.ptr
  ptr : t.ptr = s.ptr * e.width
  endState : t.endState = s.endState
  id : t.id = s.id
  uid : t.uid = s.uid
  bol : g.feat.bol = true → t.bol = s.bol ∧ t.endBol = s.endBol
  start : t.startState = s.startState
  stk : g.feat.recursive = true → t.pop = s.pop ∧ t.pushDfa = s.pushDfa
  row : FromEnd d s

theorem ok_bind {α β : Type} (a : α) (k : α → M β) : ((Except.ok a : M α) >>= k) = k a := rfl

theorem err_bind {α β : Type} (x : Fault) (k : α → M β) : ((Except.error x : M α) >>= k) = .error x := rfl

theorem getCell_ub {rows : List Row} {p c : Nat} : (∃ v, getCell rows p c = .ok v) ∨ ∃ m, getCell rows p c = .error (.ub m) := by
  unfold getCell
  split
  · exact .inr ⟨_, rfl⟩
  · split
    · exact .inl ⟨_, rfl⟩
    · exact .inr ⟨_, rfl⟩

theorem endStep_sim (X : Exact g f) (T : Tab g.pointers d e) {s t : LuState} (h : VR g d e s t) (tok curr : Nat) :
    SimR (fun x y => VR g d e x.1 y.1 ∧ y.2 = x.2) (s.endStep f d tok curr) (g.endStep e t tok curr) := by
  unfold LuState.endStep GenCode.endStep
  rw [h.ptr]
  rcases getCell_ub (rows := d.rows) (p := s.ptr) (c := ixEnd) with ⟨v, hv⟩ | ⟨m, hm⟩
  · have hc := T.num h.pos (by decide) hv
    rw [show s.ptr * e.width + ixEnd = s.ptr * e.width from rfl] at hc
    rw [hv, hc]
    simp only [ok_bind]
    by_cases hv0 : v = 0
    · rw [if_neg (show ¬ (v ≠ 0) from fun hn => hn hv0),
        if_neg (show ¬ (GenCode.isSet (.num v) = true) by simp [GenCode.isSet, hv0])]
      exact SimR.ok ⟨h, rfl⟩
    rw [if_pos hv0, if_pos (show GenCode.isSet (.num v) = true by simpa [GenCode.isSet] using hv0)]
    rcases getCell_ub (rows := d.rows) (p := s.ptr) (c := ixId) with ⟨v1, hv1⟩ | ⟨m, hm⟩
    · rcases getCell_ub (rows := d.rows) (p := s.ptr) (c := ixUserId) with ⟨v2, hv2⟩ | ⟨m, hm⟩
      · rcases getCell_ub (rows := d.rows) (p := s.ptr) (c := ixPushDfa) with ⟨v3, hv3⟩ | ⟨m, hm⟩
        · rcases getCell_ub (rows := d.rows) (p := s.ptr) (c := ixNextDfa) with ⟨v4, hv4⟩ | ⟨m, hm⟩
          · have c1 := T.num h.pos (by decide) hv1
            have c2 := T.num h.pos (by decide) hv2
            have c3 := T.num h.pos (by decide) hv3
            have c4 := T.num h.pos (by decide) hv4
            rw [hv1, hv2, hv3, hv4]
            simp only [c1, c2, c3, c4, ok_bind, GenCode.toNum]
            obtain ⟨row, r1, r2⟩ := getCell_ok hv1
            obtain ⟨row', r1', r2'⟩ := getCell_ok hv
            rw [r1] at r1'; cases r1'
            have hrow : ∃ p row, 0 < p ∧ d.rows[p]? = some row ∧ row[ixEnd]? ≠ some 0 ∧ row[ixId]? = some v1 :=
              ⟨s.ptr, row, h.pos, r1, by rw [r2']; simpa using hv0, r2⟩
            rw [X.flags]
            have hbol := h.bol
            have hst := h.start
            have hk := h.stk
            cases hr : g.feat.recursive <;> cases hm : g.feat.multi <;>
              simp only [ok_bind, if_true, if_false, Bool.false_eq_true] <;>
              refine ⟨_, rfl, ⟨h.pos, rfl, rfl, rfl, rfl, ?_, ?_, ?_, fun _ => hrow⟩, rfl⟩ <;>
              first
              | exact hst
              | rfl
              | (intro _; exact ⟨rfl, rfl⟩)
              | (intro hx; rw [hr] at hx; cases hx)
              | (intro hx; simp only [hx, if_true]; exact ⟨(hbol hx).1, (hbol hx).1⟩)
          · rw [hv1, hv2, hv3, hm]; trivial
        · rw [hv1, hv2, hm]; trivial
      · rw [hv1, hm]; trivial
    · rw [hm]; trivial
  · rw [hm]; trivial

theorem stepBytes_sim (T : Tab g.pointers d e) (bs : List Nat) : ∀ {p : Nat} (z : Nat), 0 < p → (bs = [] → z ≠ 0) →
    SimR (fun x y => 0 < x.1 ∧ y.1 = x.1 * e.width ∧ y.2 = (x.2 != 0)) (LuState.stepBytes d p bs z)
      (g.stepBytes e (p * e.width) bs) := by
  induction bs with
  | nil =>
    intro p z hp hz
    exact SimR.ok ⟨hp, rfl, by simpa using hz rfl⟩
  | cons b bs ih =>
    intro p z hp _
    unfold LuState.stepBytes GenCode.stepBytes LuState.step
    rw [T.lookup]
    cases hl : d.lookup[b]? with
    | none => trivial
    | some col =>
      dsimp only
      rcases getCell_ub (rows := d.rows) (p := p) (c := col) with ⟨v, hv⟩ | ⟨m, hm⟩
      · obtain ⟨x, x1, x2, x3⟩ := T.trans hp (T.col col (List.mem_of_getElem? hl)).1 hv
        rw [hv, x1]
        simp only [ok_bind, x2]
        by_cases hv0 : v = 0
        · rw [if_pos hv0, if_neg (by simp [hv0])]
          exact SimR.ok ⟨hp, rfl, rfl⟩
        · rw [if_neg hv0, if_pos (by simpa using hv0), x3 hv0]
          exact ih v (Nat.pos_of_ne_zero hv0) (fun _ => hv0)
      · rw [hm]; trivial

theorem stepBytes_one (p c : Nat) (d : Dfa) : LuState.stepBytes d p [c] 0 = (do
    let st ← LuState.step d p c
    if st = 0 then .ok (p, 0) else .ok (st, st)) := by
  unfold LuState.stepBytes
  cases LuState.step d p c with
  | error e => rfl
  | ok st => simp only [ok_bind, LuState.stepBytes]

theorem nextChar_sim (T : Tab g.pointers d e) (hb : bytes ≠ 0) {s t : LuState} (h : VR g d e s t) (c : Nat) :
    SimR (fun x y => VR g d e x.1 y.1 ∧ y.2 = (x.2 != 0)) (s.nextChar bytes d c) (g.nextChar bytes e t c) := by
  have fin : ∀ bs, bs ≠ [] → SimR (fun x y => VR g d e x.1 y.1 ∧ y.2 = (x.2 != 0))
      (do let (ptr, state) ← LuState.stepBytes d s.ptr bs 0
          .ok ({ s with ptr := ptr }, state) : M (LuState × Nat))
      (do let (ptr, ok) ← g.stepBytes e t.ptr bs
          .ok ({ t with ptr := ptr }, ok) : M (LuState × Bool)) := by
    intro bs hbs
    rw [h.ptr]
    refine (stepBytes_sim T bs 0 h.pos (fun h => absurd h hbs)).bind ?_
    rintro ⟨p, z⟩ ⟨q, b⟩ ⟨h1, h2, h3⟩
    exact SimR.ok ⟨⟨h1, h2, h.endState, h.id, h.uid, h.bol, h.start, h.stk, h.row⟩, h3⟩
  unfold LuState.nextChar GenCode.nextChar
  split
  · have := fin [c] (by simp)
    rw [stepBytes_one] at this
    cases hst : LuState.step d s.ptr c with
    | error x =>
      rw [hst] at this
      exact this
    | ok st =>
      rw [hst] at this
      simp only [ok_bind] at this ⊢
      by_cases h0 : st = 0
      · rw [if_pos h0] at this
        rw [if_neg (by simpa using h0)]
        subst h0
        exact this
      · rw [if_neg h0] at this
        rw [if_pos h0]
        exact this
  · refine fin _ ?_
    intro h0
    have := congrArg List.length h0
    simp at this
    exact hb this

theorem charAt_ub {inp : List Nat} {eoi p : Nat} : (∃ v, charAt inp eoi p = .ok v) ∨ ∃ m, charAt inp eoi p = .error (.ub m) := by
  unfold charAt
  split
  · split
    · exact .inl ⟨_, rfl⟩
    · exact .inr ⟨_, rfl⟩
  · exact .inr ⟨_, rfl⟩

theorem scan_sim (X : Exact g f) (T : Tab g.pointers d e) (hb : bytes ≠ 0) (inp : List Nat) (eoi : Nat) (n : Nat) :
    ∀ {s t : LuState} {curr tok f1 f2 : Nat}, VR g d e s t → eoi - curr ≤ n → n < f1 → n < f2 →
    SimR (fun x y => VR g d e x.1 y.1 ∧ y.2.2 = x.2.2) (s.scan f bytes d inp eoi f1 curr tok)
      (g.scan bytes e inp eoi f2 t curr tok) := by
  induction n with
  | zero =>
    intro s t curr tok f1 f2 h hn h1 h2
    obtain ⟨f1, rfl⟩ : ∃ k, f1 = k + 1 := ⟨f1 - 1, by omega⟩
    obtain ⟨f2, rfl⟩ : ∃ k, f2 = k + 1 := ⟨f2 - 1, by omega⟩
    unfold LuState.scan GenCode.scan
    split
    · exact SimR.ok ⟨h, rfl⟩
    · have : charAt inp eoi curr = .error (.ub "dereference of eoi") := by
        unfold charAt; rw [if_neg (by omega)]
      rw [this]; trivial
  | succ n ih =>
    intro s t curr tok f1 f2 h hn h1 h2
    obtain ⟨f1, rfl⟩ : ∃ k, f1 = k + 1 := ⟨f1 - 1, by omega⟩
    obtain ⟨f2, rfl⟩ : ∃ k, f2 = k + 1 := ⟨f2 - 1, by omega⟩
    unfold LuState.scan GenCode.scan
    split
    · exact SimR.ok ⟨h, rfl⟩
    · rcases charAt_ub (inp := inp) (eoi := eoi) (p := curr) with ⟨c, hc⟩ | ⟨m, hm⟩
      · rw [hc]
        have hf : f.eol = false := by rw [X.flags]
        have hie : ∀ s x, LuState.isEol f d s x = .ok (s, false) := by
          intro s x; unfold LuState.isEol; rw [hf]; rfl
        simp only [ok_bind, hie, X.eol, Bool.false_eq_true, if_false]
        rw [show GenCode.isSet (.num 0) = false from rfl, Bool.false_and]
        simp only [Bool.false_eq_true, if_false]
        refine (nextChar_sim T hb h c).bind ?_
        rintro ⟨s1, st⟩ ⟨t1, ok⟩ ⟨hv, hok⟩
        dsimp only at hv hok ⊢
        have hv2 : VR g d e (if f.bol = true then { s1 with bol := c == 10 } else s1)
            (if g.feat.bol = true then { t1 with bol := c == 10 } else t1) := by
          rw [X.flags]
          dsimp only
          split
          · rename_i hx
            exact ⟨hv.pos, hv.ptr, hv.endState, hv.id, hv.uid, fun hx => ⟨rfl, (hv.bol hx).2⟩, hv.start, hv.stk, hv.row⟩
          · exact hv
        by_cases h0 : st = 0
        · rw [if_pos h0, if_neg (show ¬ (ok = true) by simp [hok, h0])]
          exact SimR.ok ⟨hv2, rfl⟩
        · rw [if_neg h0, if_pos (show ok = true by simp [hok, h0])]
          refine (endStep_sim X T hv2 _ _).bind ?_
          rintro ⟨s3, a⟩ ⟨t3, a'⟩ ⟨h3, rfl⟩
          exact ih h3 (by omega) (by omega) (by omega)
      · rw [hm]; trivial

theorem mul_lt {a b : Nat} (h : 0 < b) : a < (a + 1) * (b + 1) + 1 := by
  have : (a + 1) * 1 ≤ (a + 1) * (b + 1) := Nat.mul_le_mul_left _ (by omega)
  omega

theorem init_sim (T : Tab g.pointers d e) {b b' : Bool} (hbb : g.feat.bol = true → b' = b) (st : Nat) :
    SimR (VR g d e) (LuState.init d b st) (g.init e b' st) := by
  have hbb : g.feat.bol = true → b' = b ∧ b' = b := fun h => ⟨hbb h, hbb h⟩
  unfold LuState.init GenCode.init
  rcases getCell_ub (rows := d.rows) (p := 1) (c := ixEnd) with ⟨v, hv⟩ | ⟨m, hm⟩
  · rcases getCell_ub (rows := d.rows) (p := 1) (c := ixId) with ⟨v1, hv1⟩ | ⟨m, hm⟩
    · rcases getCell_ub (rows := d.rows) (p := 1) (c := ixUserId) with ⟨v2, hv2⟩ | ⟨m, hm⟩
      · rcases getCell_ub (rows := d.rows) (p := 1) (c := ixPushDfa) with ⟨v3, hv3⟩ | ⟨m, hm⟩
        · have c0 := T.num (by decide : 0 < 1) (by decide) hv
          have c1 := T.num (by decide : 0 < 1) (by decide) hv1
          have c2 := T.num (by decide : 0 < 1) (by decide) hv2
          have c3 := T.num (by decide : 0 < 1) (by decide) hv3
          rw [Nat.one_mul] at c0 c1 c2 c3
          rw [show e.width + ixEnd = e.width from rfl] at c0
          rw [hv, hv1, hv2, hv3]
          simp only [ok_bind, c0, c1, c2, c3, GenCode.toNum]
          obtain ⟨row, r1, r2⟩ := getCell_ok hv1
          obtain ⟨row', r1', r2'⟩ := getCell_ok hv
          rw [r1] at r1'; cases r1'
          have hrow : (v != 0) = true → ∃ p row, 0 < p ∧ d.rows[p]? = some row ∧ row[ixEnd]? ≠ some 0 ∧ row[ixId]? = some v1 :=
            fun h => ⟨1, row, by decide, r1, by rw [r2']; simpa using h, r2⟩
          cases hr : g.feat.recursive with
          | true =>
            simp only [if_true, ok_bind]
            exact SimR.ok ⟨Nat.zero_lt_one, (Nat.one_mul _).symm, rfl, rfl, rfl, hbb, rfl, fun _ => ⟨rfl, rfl⟩, hrow⟩
          | false =>
            simp only [Bool.false_eq_true, if_false, ok_bind]
            exact SimR.ok ⟨Nat.zero_lt_one, (Nat.one_mul _).symm, rfl, rfl, rfl, hbb, rfl, fun h => absurd (hr.symm.trans h) (by decide), hrow⟩
        · rw [hv, hv1, hv2, hm]; trivial
      · rw [hv, hv1, hm]; trivial
    · rw [hv, hm]; trivial
  · rw [hm]; trivial

theorem bolStart_sim (X : Exact g f) (T : Tab g.pointers d e)
    (hp : g.pointers = true → g.feat.bol = true → ∀ v, getCell d.rows 0 0 = .ok v → v ≠ 0) {s t : LuState} (h : VR g d e s t) :
    SimR (VR g d e) (s.bolStartState f d) (g.bolStart e t) := by
  unfold LuState.bolStartState GenCode.bolStart
  have hi : (g.feat.bol = true ∧ t.bol = true) ↔ (g.feat.bol = true ∧ s.bol = true) :=
    ⟨fun hx => ⟨hx.1, by rw [← (h.bol hx.1).1]; exact hx.2⟩, fun hx => ⟨hx.1, by rw [(h.bol hx.1).1]; exact hx.2⟩⟩
  rw [X.flags]
  dsimp only
  by_cases hb : g.feat.bol = true ∧ s.bol = true
  · rw [if_pos hb, if_pos (hi.2 hb)]
    rcases getCell_ub (rows := d.rows) (p := 0) (c := 0) with ⟨v, hv⟩ | ⟨m, hm⟩
    · have hc := (T.cell 0 0 v hv).2
      rw [Nat.zero_mul] at hc
      rw [hv, GenCode.cellAt, hc]
      simp only [ok_bind]
      cases hg : g.pointers with
      | true =>
        have hv0 := hp hg hb.1 v hv
        rw [if_pos hv0]
        show SimR _ _ (if GenCode.isSet (.addr (v * e.width)) = true then _ else _)
        rw [if_pos (show GenCode.isSet (.addr (v * e.width)) = true from rfl)]
        have : g.jump e (.addr (v * e.width)) = .ok (v * e.width) := by unfold GenCode.jump; rw [hg]
        show SimR _ _ (g.jump e (.addr (v * e.width)) >>= _)
        rw [this]
        exact SimR.ok ⟨Nat.pos_of_ne_zero hv0, rfl, h.endState, h.id, h.uid, h.bol, h.start, h.stk, h.row⟩
      | false =>
        show SimR _ _ (if GenCode.isSet (.num v) = true then _ else _)
        by_cases hv0 : v = 0
        · rw [if_neg (by simpa using hv0), if_neg (by simp [GenCode.isSet, hv0])]
          exact SimR.ok h
        · rw [if_pos hv0, if_pos (by simpa [GenCode.isSet] using hv0)]
          have : g.jump e (.num v) = .ok (v * e.width) := by unfold GenCode.jump; rw [hg]
          show SimR _ _ (g.jump e (.num v) >>= _)
          rw [this]
          exact SimR.ok ⟨Nat.pos_of_ne_zero hv0, rfl, h.endState, h.id, h.uid, h.bol, h.start, h.stk, h.row⟩
    · rw [hm]; trivial
  · rw [if_neg hb, if_neg (fun hx => hb (hi.1 hx))]
    exact SimR.ok h

theorem attempt_sim {sm : Internals} (M : Machine npos sm) {pointers : Bool} (X : Exact (generate sm pointers) f) (hb : bytes ≠ 0)
    (hp : pointers = true → hasBit sm.features 1 = true → ∀ rows ∈ sm.dfa, getCell rows 0 0 ≠ .ok 0)
    {inp : List Nat} {r r' : Results} (hr : SameResults (hasBit sm.features 1) r r')
    {curr tok fuel : Nat} (hf : r.eoi - curr < fuel) :
    SimR (fun x y => y.2 = x.2 ∧ ∃ d e, (∃ i, sm.dfaAt i = .ok d) ∧ VR (generate sm pointers) d e x.1 y.1)
      (attempt f npos bytes sm inp r curr tok) ((generate sm pointers).attempt bytes inp fuel r' curr tok) := by
  unfold attempt GenCode.attempt
  cases hd : sm.dfaAt r.state with
  | error x =>
    unfold Internals.dfaAt at hd
    split at hd
    · cases hd
    · cases hd; trivial
  | ok d =>
  have hst : r.state < sm.dfa.length := by
    unfold Internals.dfaAt at hd
    split at hd
    · rename_i h1 h2
      exact (List.getElem?_eq_some_iff.1 h2).1
    · cases hd
  obtain ⟨e, he, T⟩ := tab M pointers hd
  have hge : (generate sm pointers).dfaAt r'.state = .ok e := by
    unfold GenCode.dfaAt
    have : (if (generate sm pointers).feat.multi = true then r'.state else 0) = r.state := by
      rw [hr.state]
      split
      · rfl
      · rename_i h
        have : ¬ sm.dfa.length > 1 := by simpa [generate, genFeatures] using h
        omega
    rw [this, he]
  rw [hge, hr.state, hr.eoi]
  simp only [ok_bind]
  refine (init_sim (g := generate sm pointers) T hr.bol r.state).bind ?_
  intro s t h
  have hd' : d.rows ∈ sm.dfa := by
    unfold Internals.dfaAt at hd
    split at hd
    · rename_i h1 h2
      cases hd
      exact List.mem_of_getElem? h2
    · cases hd
  refine (bolStart_sim X T (fun h1 h2 v hv hv0 => hp h1 h2 _ hd' (by rw [hv, hv0])) h).bind ?_
  intro s t h
  refine (scan_sim X T hb inp r.eoi (r.eoi - curr) h (Nat.le_refl _) ?_ hf).bind ?_
  · unfold scanFuel
    have h1 := Nat.mul_le_mul_left (r.eoi - curr + 1) (Nat.le_add_left 1 d.rows.length)
    omega
  rintro ⟨s, c, k⟩ ⟨t, c', k'⟩ ⟨h, hk⟩
  dsimp only at hk
  subst hk
  dsimp only
  unfold LuState.checkEol GenCode.checkEol
  have he1 : f.eol = false := by rw [X.flags]
  rw [he1, X.eol]
  simp only [Bool.false_eq_true, false_and, if_false]
  exact SimR.ok ⟨rfl, d, e, ⟨_, hd⟩, h⟩

theorem popStep_sim {sm : Internals} {pointers : Bool} (X : Exact (generate sm pointers) f) {s t : LuState}
    (hs : t.startState = s.startState ∧ t.id = s.id ∧ t.uid = s.uid ∧ (hasBit sm.features 1 = true → t.endBol = s.endBol))
    (hk : hasBit sm.features 32 = true → t.pop = s.pop ∧ t.pushDfa = s.pushDfa)
    (hid : hasBit sm.features 8 = false → s.id ≠ sm.eoi) {stack : List (Nat × Nat)} (hst : StackFits sm stack) :
    SimR (fun x y => y.2 = x.2 ∧ y.1.startState = x.1.startState ∧ y.1.id = x.1.id ∧ y.1.uid = x.1.uid ∧
        (hasBit sm.features 1 = true → y.1.endBol = x.1.endBol) ∧ x.1.id = s.id ∧ (hasBit sm.features 32 = true → y.1.pop = x.1.pop) ∧ StackFits sm x.2)
      (s.popStep f npos stack) ((generate sm pointers).popStep npos t stack) := by
  obtain ⟨h1, h2, h3, h4⟩ := hs
  unfold LuState.popStep GenCode.popStep
  rw [X.flags]
  dsimp only
  have hfe : (generate sm pointers).feat.recursive = hasBit sm.features 32 := rfl
  rw [hfe]
  revert hk
  cases hr : hasBit sm.features 32 <;> intro hk
  · simp only [Bool.false_eq_true, if_false]
    exact SimR.ok ⟨rfl, h1, h2, h3, h4, rfl, fun h => absurd h (by decide), hst⟩
  · obtain ⟨k1, k2⟩ := hk rfl
    simp only [if_true, k1, k2]
    split
    · split
      · exact ⟨_, rfl⟩
      · rename_i e stack
        exact SimR.ok ⟨rfl, rfl, h2, h3, h4, rfl, fun _ => rfl, fun h x hx => hst h x (List.mem_cons_of_mem _ hx)⟩
    · split
      · refine SimR.ok ⟨by rw [h2], h1, h2, h3, h4, rfl, fun _ => k1, fun h x hx => ?_⟩
        rcases List.mem_cons.1 hx with rfl | hx
        · exact hid h
        · exact hst h x hx
      · exact SimR.ok ⟨rfl, h1, h2, h3, h4, rfl, fun _ => k1, hst⟩

theorem nextLoop_sim {sm : Internals} (M : Machine npos sm) (S : FeaturesSay npos sm) {pointers : Bool}
    (X : Exact (generate sm pointers) f) (hb : bytes ≠ 0)
    (hp : pointers = true → hasBit sm.features 1 = true → ∀ rows ∈ sm.dfa, getCell rows 0 0 ≠ .ok 0)
    {inp : List Nat} {sf : Nat} (fuel : Nat) : ∀ {r r' : Results} {curr tok : Nat}, SameResults (hasBit sm.features 1) r r' →
    StackFits sm r.stack → r.eoi < sf →
    SimR (fun a b => SameResults (hasBit sm.features 1) a b ∧ StackFits sm a.stack) (nextLoop f npos bytes sm inp fuel r curr tok)
      ((generate sm pointers).nextLoop npos bytes inp sf fuel r' curr tok) := by
  induction fuel with
  | zero => intro r r' curr tok _ _ _; rfl
  | succ fuel ih =>
    intro r r' curr tok hr hst hsf
    unfold nextLoop GenCode.nextLoop
    rw [hr.eoi]
    split
    · exact SimR.ok ⟨⟨rfl, rfl, hr.first, hr.second, rfl, hr.bol, hr.state, hr.stack⟩, hst⟩
    · refine (attempt_sim M X hb hp hr (by omega)).bind ?_
      rintro ⟨s, tok1⟩ ⟨t, tok2⟩ ⟨h1, d, e, ⟨i, hd⟩, V⟩
      dsimp only at h1 V ⊢
      subst h1
      rw [V.endState]
      split
      · rename_i hend
        obtain ⟨p, row, p0, p1, p2, p3⟩ := V.row hend
        have hd' : d.rows ∈ sm.dfa := by
          unfold Internals.dfaAt at hd
          split at hd
          · rename_i h1 h2
            cases hd
            exact List.mem_of_getElem? h2
          · cases hd
        have hmem : row ∈ d.rows.drop 1 := Flg.mem_drop p0 p1
        rw [hr.stack]
        refine (popStep_sim X ⟨V.start, V.id, V.uid, fun h => (V.bol h).2⟩ V.stk ?_ hst).bind ?_
        · intro h8 hid
          exact S.again h8 _ hd' row hmem p2 (by rw [p3, hid])
        rintro ⟨s1, st⟩ ⟨t1, st'⟩ ⟨h1, h2, h3, h4, h5, h6, h7, h8⟩
        dsimp only at h1 h2 h3 h4 h5 h6 h7 h8 ⊢
        subst h1
        have hB' : hasBit sm.features 1 = true → (if (generate sm pointers).feat.bol = true then t1.endBol else r'.bol) =
            (if f.bol = true then s1.endBol else r.bol) := by
          intro hB
          have : (generate sm pointers).feat.bol = true := hB
          rw [X.flags]
          simp only [this, if_true]
          exact h5 hB
        have hS' : (if (generate sm pointers).feat.multi = true then t1.startState else r'.state) =
            (if f.multiState = true then s1.startState else r.state) := by
          rw [X.flags]
          dsimp only
          rw [h2, hr.state]
        have hskip : ((generate sm pointers).feat.skip && t1.id == npos - 1) = decide (s1.id = npos - 1) := by
          rw [h3]
          show (hasBit sm.features 4 && _) = _
          cases h4 : hasBit sm.features 4 with
          | true => rfl
          | false =>
            have : s1.id ≠ npos - 1 := fun hid => S.skip h4 _ hd' row hmem p2 (by rw [p3, ← h6, hid])
            simp [this]
        rw [hskip]
        have hag : (generate sm pointers).isAgain t1 st' = s1.isIdEoi f sm.eoi st' := by
          unfold GenCode.isAgain LuState.isIdEoi
          rw [X.flags, h3]
          show (hasBit sm.features 8 && (s1.id == sm.eoi || (hasBit sm.features 32 && t1.pop && _))) =
            (s1.id == sm.eoi || (hasBit sm.features 32 && s1.pop && _))
          have hpp : (hasBit sm.features 32 && t1.pop) = (hasBit sm.features 32 && s1.pop) := by
            cases h32 : hasBit sm.features 32 with
            | false => rfl
            | true => rw [h7 h32]
          rw [hpp]
          cases h88 : hasBit sm.features 8 with
          | true => simp only [Bool.true_and]; rfl
          | false =>
            have h1 : s1.id ≠ sm.eoi := fun hid => S.again h88 _ hd' row hmem p2 (by rw [p3, ← h6, hid])
            cases st' with
            | nil => simp [h1]
            | cons e st =>
              have : e.2 ≠ sm.eoi := h8 h88 e (by simp)
              simp [h1, this]
        rw [hag]
        by_cases hid : s1.id = npos - 1
        · rw [if_pos hid, if_pos (decide_eq_true hid)]
          exact ih ⟨hr.id, hr.userId, rfl, rfl, rfl, hB', hS', rfl⟩ h8 hsf
        · rw [if_neg hid, if_neg (show ¬ (decide (s1.id = npos - 1) = true) by simpa using hid)]
          split
          · exact ih ⟨hr.id, hr.userId, hr.first, rfl, rfl, hB', hS', rfl⟩ h8 hsf
          · exact ⟨_, rfl, ⟨h3, h4, hr.first, rfl, rfl, hB', hS', rfl⟩, h8⟩
      · rcases charAt_ub (inp := inp) (eoi := r.eoi) (p := tok2) with ⟨c, hc⟩ | ⟨m, hm⟩
        · rw [hc]
          simp only [ok_bind]
          have : f.advance = true := by rw [X.flags]
          rw [this]
          refine SimR.ok ⟨⟨rfl, rfl, rfl, rfl, rfl, ?_, hr.state, hr.stack⟩, hst⟩
          intro hB
          have : (generate sm pointers).feat.bol = true := hB
          simp only [this, if_true]
        · rw [hm]; trivial

/-- `y` is `x`, unless `x` has run out of fuel. -/
def Le {α : Type} (x y : M α) : Prop := x = .error .fuel ∨ x = y

theorem Le.refl {α : Type} (x : M α) : Le x x := .inr rfl

theorem Le.bind {α β : Type} {x y : M α} {k k' : α → M β} (h : Le x y) (h' : ∀ a, Le (k a) (k' a)) : Le (x >>= k) (y >>= k') := by
  rcases h with rfl | rfl
  · exact .inl rfl
  · cases x with
    | error e => exact .inr rfl
    | ok a => exact h' a

theorem scan_le (g : GenCode) (bytes : Nat) (e : GenDfa) (inp : List Nat) (eoi : Nat) : ∀ (n m : Nat) (s : LuState) (curr tok : Nat), n ≤ m →
    Le (g.scan bytes e inp eoi n s curr tok) (g.scan bytes e inp eoi m s curr tok) := by
  intro n
  induction n with
  | zero => intro m s curr tok _; exact .inl rfl
  | succ n ih =>
    intro m s curr tok hm
    obtain ⟨m, rfl⟩ : ∃ k, m = k + 1 := ⟨m - 1, by omega⟩
    unfold GenCode.scan
    split
    · exact .refl _
    · refine (Le.refl _).bind fun c => ?_
      have key : ∀ eol : GenCell, Le (if (GenCode.isSet eol && c == 10) = true then (do
          let (s, endTok) ← g.endStep e { s with ptr := ← g.jump e eol } tok curr
          g.scan bytes e inp eoi n s curr endTok) else (do
          let (s, ok) ← g.nextChar bytes e s c
          let s := if g.feat.bol then { s with bol := c == 10 } else s
          if ok then
            let (s, endTok) ← g.endStep e s tok (curr + 1)
            g.scan bytes e inp eoi n s (curr + 1) endTok
          else .ok (s, curr + 1, tok)) : M (LuState × Nat × Nat))
          (if (GenCode.isSet eol && c == 10) = true then (do
          let (s, endTok) ← g.endStep e { s with ptr := ← g.jump e eol } tok curr
          g.scan bytes e inp eoi m s curr endTok) else (do
          let (s, ok) ← g.nextChar bytes e s c
          let s := if g.feat.bol then { s with bol := c == 10 } else s
          if ok then
            let (s, endTok) ← g.endStep e s tok (curr + 1)
            g.scan bytes e inp eoi m s (curr + 1) endTok
          else .ok (s, curr + 1, tok)) : M (LuState × Nat × Nat)) := by
        intro eol
        split
        · refine (Le.refl _).bind fun j => (Le.refl _).bind fun x => ?_
          exact ih m _ _ _ (by omega)
        · refine (Le.refl _).bind fun x => ?_
          dsimp only
          split
          · exact (Le.refl _).bind fun x => ih m _ _ _ (by omega)
          · exact .refl _
      dsimp only
      split
      · exact (Le.refl _).bind key
      · exact (Le.refl (Except.ok (GenCell.num 0) : M GenCell)).bind key

theorem attempt_le (g : GenCode) (bytes : Nat) (inp : List Nat) {n m : Nat} (h : n ≤ m) (r : Results) (curr tok : Nat) :
    Le (g.attempt bytes inp n r curr tok) (g.attempt bytes inp m r curr tok) := by
  unfold GenCode.attempt
  exact (Le.refl _).bind fun d => (Le.refl _).bind fun s => (Le.refl _).bind fun s =>
    (scan_le g bytes d inp _ n m _ _ _ h).bind fun x => .refl _

theorem gnextLoop_le (g : GenCode) (npos bytes : Nat) (inp : List Nat) {sf sf' : Nat} (h : sf ≤ sf') : ∀ (n m : Nat) (r : Results) (curr tok : Nat),
    n ≤ m → Le (g.nextLoop npos bytes inp sf n r curr tok) (g.nextLoop npos bytes inp sf' m r curr tok) := by
  intro n
  induction n with
  | zero => intro m r curr tok _; exact .inl rfl
  | succ n ih =>
    intro m r curr tok hm
    obtain ⟨m, rfl⟩ : ∃ k, m = k + 1 := ⟨m - 1, by omega⟩
    unfold GenCode.nextLoop
    split
    · exact .refl _
    · refine (attempt_le g bytes inp h r curr tok).bind fun x => ?_
      dsimp only
      split
      · refine (Le.refl _).bind fun y => ?_
        split
        · exact ih m _ _ _ (by omega)
        · split
          · exact ih m _ _ _ (by omega)
          · exact .refl _
      · exact .refl _

/-- A call of the generated function has one outcome. -/
theorem returns_unique {g : GenCode} {npos bytes : Nat} {inp : List Nat} {r : Results} {o o' : M Results}
    (h : g.Returns npos bytes inp r o) (h' : g.Returns npos bytes inp r o') : o = o' := by
  obtain ⟨n1, a, b, rfl⟩ := h
  obtain ⟨n2, c, d, rfl⟩ := h'
  have k1 := gnextLoop_le g npos bytes inp (Nat.le_max_left a c) b (max b d) { r with first := r.second } r.second r.second (Nat.le_max_left _ _)
  have k2 := gnextLoop_le g npos bytes inp (Nat.le_max_right a c) d (max b d) { r with first := r.second } r.second r.second (Nat.le_max_right _ _)
  exact (k1.resolve_left n1).trans (k2.resolve_left n2).symm

end Lexertl.Gen
