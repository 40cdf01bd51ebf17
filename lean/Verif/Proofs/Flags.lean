import Verif.Proofs.Safe
import Verif.Spec.Features

/-
Flags a machine does not need make no difference to `lookup`.
-/
namespace Lexertl.Flg
open Spec

/-- Both return, with related results, or both fail in the same way. -/
def Rel2 {α β : Type} (R : α → β → Prop) : M α → M β → Prop
  | .ok a, .ok b => R a b
  | .error e, .error e' => e = e'
  | _, _ => False

theorem Rel2.bind {α β γ δ : Type} {R : α → β → Prop} {S : γ → δ → Prop} {x : M α} {y : M β} {g : α → M γ}
    {h : β → M δ} (r : Rel2 R x y) (k : ∀ a b, R a b → Rel2 S (g a) (h b)) : Rel2 S (x >>= g) (y >>= h) := by
  cases x with
  | ok a =>
    cases y with
    | ok b => exact k a b r
    | error e => cases r
  | error e =>
    cases y with
    | ok b => cases r
    | error e' => exact r

theorem Rel2.left {α γ δ : Type} {S : γ → δ → Prop} {x : M α} {a : α} (r : x = .ok a) {g : α → M γ}
    {y : M δ} (k : Rel2 S (g a) y) : Rel2 S (x >>= g) y := by
  subst r; exact k

theorem Rel2.refl {α : Type} (x : M α) : Rel2 (fun a b => a = b) x x := by
  cases x <;> rfl

/-- The flags a machine needs. -/
structure Need where
  bol : Bool
  eol : Bool
  multi : Bool
  stk : Bool

/-- The tables do not contain what is not needed. -/
structure Says (F : Need) (npos : Nat) (d : Dfa) : Prop where
  bol : F.bol = false → getCell d.rows 0 0 = .ok 0
  eol : F.eol = false → ∀ (p : Nat) (row : Row), 0 < p → d.rows[p]? = some row → row[ixEol]? = some 0
  stk : F.stk = false → ∀ (p : Nat) (row : Row) (e : Nat), 0 < p → d.rows[p]? = some row → row[ixEnd]? = some e → e ≠ 0 →
    hasBit e bitPop = false ∧ row[ixPushDfa]? = some npos

/-- `f0` are the flags needed, `f` more flags. -/
structure Within (F : Need) (f0 f : Flags) : Prop where
  f0 : f0 = ⟨F.bol, F.eol, F.multi, F.stk, f.advance⟩
  bol : F.bol = true → f.bol = true
  eol : F.eol = true → f.eol = true
  multi : F.multi = true → f.multiState = true
  stk : F.stk = true → f.recursive = true

/-- The two lookup states. -/
structure LR (F : Need) (f : Flags) (npos n : Nat) (d : Dfa) (s t : LuState) : Prop where
  ok : LuOk f npos n d s
  ptr : t.ptr = s.ptr
  endState : t.endState = s.endState
  id : t.id = s.id
  uid : t.uid = s.uid
  bol : F.bol = true → t.bol = s.bol ∧ t.endBol = s.endBol
  eol : F.eol = true → t.eolState = s.eolState
  start : F.multi = true → t.startState = s.startState
  stk : F.stk = true → t.pop = s.pop ∧ t.pushDfa = s.pushDfa
  nostk : F.stk = false → f.recursive = true → s.endState = true → s.pop = false ∧ s.pushDfa = npos

variable {F : Need} {f0 f : Flags} {npos n : Nat} {d : Dfa} {bytes : Nat}

theorem endStep_rel (K : TableOk f npos n d) (T : Says F npos d) (W : Within F f0 f) {s t : LuState}
    (h : LR F f npos n d s t) (tok curr : Nat) :
    Rel2 (fun x y => LR F f npos n d x.1 y.1 ∧ y.2 = x.2) (s.endStep f d tok curr) (t.endStep f0 d tok curr) := by
  have hs := endStep_safe K h.ok tok curr
  revert hs
  unfold LuState.endStep
  rw [h.ptr]
  obtain ⟨p0, p1, _⟩ := h.ok.ptr
  obtain ⟨row, e, r0, he0, g⟩ := K.table.cell (c := ixEnd) p1 (by decide)
  obtain ⟨_, id, r1, _, g1⟩ := K.table.cell (c := ixId) p1 (by decide)
  obtain ⟨_, uid, r2, _, g2⟩ := K.table.cell (c := ixUserId) p1 (by decide)
  obtain ⟨row3, pu, r3, hpu, g3⟩ := K.table.cell (c := ixPushDfa) p1 (by decide)
  obtain ⟨_, nx, r4, _, g4⟩ := K.table.cell (c := ixNextDfa) p1 (by decide)
  rw [r0] at r3; cases r3
  rw [g, g1, g2, g3, g4]
  have hb : ∀ {α β : Type} (a : α) (k : α → M β), ((Except.ok a : M α) >>= k) = k a := fun a k => rfl
  simp only [hb]
  split
  · rename_i hne
    intro hs
    refine ⟨⟨hs, rfl, rfl, rfl, rfl, ?_, h.eol, ?_, ?_, ?_⟩, rfl⟩
    · intro hF
      have := W.bol hF
      obtain ⟨b1, b2⟩ := h.bol hF
      simp only [W.f0, hF, this, if_true]
      exact ⟨b1, b1⟩
    · intro hF
      have := W.multi hF
      simp only [W.f0, hF, this, if_true]
    · intro hF
      have := W.stk hF
      simp only [W.f0, hF, this, if_true]
      exact ⟨trivial, trivial⟩
    · intro hF hr _
      simp only [hr, if_true]
      obtain ⟨x1, x2⟩ := T.stk hF _ _ _ p0 r0 he0 hne
      rw [hpu] at x2
      exact ⟨x1, Option.some.inj x2⟩
  · intro _
    exact ⟨h, rfl⟩

theorem eolCell (K : TableOk f npos n d) (T : Says F npos d) (hF : F.eol = false) {p : Nat} (h0 : 0 < p)
    (h1 : p < d.rows.length) : getCell d.rows p ixEol = .ok 0 := by
  obtain ⟨row, e, r0, he0, g⟩ := K.table.cell (c := ixEol) h1 (by decide)
  rw [T.eol hF p row h0 r0] at he0
  cases he0
  exact g

theorem LR.left_eol {s t : LuState} (h : LR F f npos n d s t) (hF : F.eol = false) (h2 : 0 < d.rows.length) :
    LR F f npos n d { s with eolState := 0 } t :=
  { ok := ⟨⟨h.ok.ptr.1, h.ok.ptr.2.1, h2⟩, h.ok.start, h.ok.push⟩
    ptr := h.ptr, endState := h.endState, id := h.id, uid := h.uid, bol := h.bol
    eol := fun x => by rw [hF] at x; cases x
    start := h.start, stk := h.stk, nostk := h.nostk }

theorem isEol_rel (K : TableOk f npos n d) (T : Says F npos d) (W : Within F f0 f) {s t : LuState}
    (h : LR F f npos n d s t) (c : Option Nat) :
    Rel2 (fun x y => LR F f npos n d x.1 y.1 ∧ y.2 = x.2) (s.isEol f d c) (t.isEol f0 d c) := by
  have hs := isEol_safe K h.ok c
  revert hs
  obtain ⟨p0, p1, p2⟩ := h.ok.ptr
  unfold LuState.isEol
  cases hF : F.eol with
  | true =>
    rw [W.f0]
    simp only [hF, W.eol hF, if_true, h.ptr]
    obtain ⟨row, e, r0, he0, g⟩ := K.table.cell (c := ixEol) p1 (by decide)
    rw [g]
    show Safe _ (if _ then _ else _) → Rel2 _ (if _ then _ else _) (if _ then _ else _)
    split
    · intro hs
      exact ⟨⟨hs, rfl, h.endState, h.id, h.uid, h.bol, fun _ => rfl, h.start, h.stk, h.nostk⟩, rfl⟩
    · intro hs
      exact ⟨⟨hs, rfl, h.endState, h.id, h.uid, h.bol, fun _ => rfl, h.start, h.stk, h.nostk⟩, rfl⟩
  | false =>
    intro _
    rw [W.f0]
    simp only [hF, Bool.false_eq_true, if_false]
    split
    · rw [eolCell K T hF p0 p1]
      exact ⟨h.left_eol hF (by omega), rfl⟩
    · exact ⟨h, rfl⟩

theorem nextChar_rel (K : TableOk f npos n d) {s t : LuState}
    (h : LR F f npos n d s t) {c : Nat} (hc : bytes = 1 → c < 256) :
    Rel2 (fun x y => LR F f npos n d x.1 y.1 ∧ y.2 = x.2) (s.nextChar bytes d c) (t.nextChar bytes d c) := by
  have hs := nextChar_safe K h.ok hc
  revert hs
  unfold LuState.nextChar
  rw [h.ptr]
  split
  · cases LuState.step d s.ptr c with
    | error e => intro _; rfl
    | ok st =>
      show Safe _ (if _ then _ else _) → Rel2 _ (if _ then _ else _) (if _ then _ else _)
      split
      · intro hs
        exact ⟨⟨hs, rfl, h.endState, h.id, h.uid, h.bol, h.eol, h.start, h.stk, h.nostk⟩, rfl⟩
      · intro _
        exact ⟨h, rfl⟩
  · dsimp only
    cases LuState.stepBytes d s.ptr ((List.range bytes).map fun i => c / 256 ^ (bytes - 1 - i) % 256) 0 with
    | error e => intro _; rfl
    | ok x =>
      intro hs
      exact ⟨⟨hs, rfl, h.endState, h.id, h.uid, h.bol, h.eol, h.start, h.stk, h.nostk⟩, rfl⟩

theorem LR.bolSet (W : Within F f0 f) {s t : LuState} (h : LR F f npos n d s t) (b : Bool) :
    LR F f npos n d (if f.bol then { s with bol := b } else s) (if f0.bol then { t with bol := b } else t) := by
  cases hF : F.bol with
  | true =>
    rw [W.f0]
    simp only [hF, W.bol hF, if_true]
    exact ⟨⟨h.ok.ptr, h.ok.start, h.ok.push⟩, h.ptr, h.endState, h.id, h.uid, fun _ => ⟨rfl, (h.bol hF).2⟩, h.eol, h.start, h.stk, h.nostk⟩
  | false =>
    rw [W.f0]
    simp only [hF, Bool.false_eq_true, if_false]
    split
    · exact ⟨⟨h.ok.ptr, h.ok.start, h.ok.push⟩, h.ptr, h.endState, h.id, h.uid, fun x => Bool.noConfusion (hF.symm.trans x), h.eol, h.start, h.stk, h.nostk⟩
    · exact h

theorem scan_rel (K : TableOk f npos n d) (T : Says F npos d) (W : Within F f0 f) {inp : List Nat}
    (hin : bytes = 1 → ∀ c ∈ inp, c < 256) {eoi : Nat} (he : eoi ≤ inp.length) (fuel : Nat) :
    ∀ {s t : LuState} {curr tok : Nat}, LR F f npos n d s t → curr ≤ eoi →
    Rel2 (fun x y => LR F f npos n d x.1 y.1 ∧ y.2 = x.2) (s.scan f bytes d inp eoi fuel curr tok)
      (t.scan f0 bytes d inp eoi fuel curr tok) := by
  induction fuel with
  | zero => intro s t curr tok _ _; rfl
  | succ fuel ih =>
    intro s t curr tok h hc
    unfold LuState.scan
    split
    · exact ⟨h, rfl⟩
    · have hce := charAt_safe (p := curr) (by omega) he
      revert hce
      cases charAt inp eoi curr with
      | error e => intro _; rfl
      | ok c =>
        intro hci
        refine (isEol_rel K T W h (some c)).bind ?_
        rintro ⟨s1, b⟩ ⟨t1, b'⟩ ⟨h1, rfl⟩
        dsimp only at h1 ⊢
        split
        · refine (endStep_rel K T W h1 _ _).bind ?_
          rintro ⟨s2, a⟩ ⟨t2, a'⟩ ⟨h2, rfl⟩
          exact ih h2 hc
        · refine (nextChar_rel K h1 (fun hb => hin hb c hci)).bind ?_
          rintro ⟨s2, a⟩ ⟨t2, a'⟩ ⟨h2, rfl⟩
          have h3 := h2.bolSet W (c == 10)
          dsimp only at h3 ⊢
          split
          · refine (isEol_rel K T W h3 none).bind ?_
            rintro ⟨s4, b⟩ ⟨t4, b'⟩ ⟨h4, _⟩
            exact ⟨h4, rfl⟩
          · refine (endStep_rel K T W h3 _ _).bind ?_
            rintro ⟨s4, b⟩ ⟨t4, b'⟩ ⟨h4, rfl⟩
            exact ih h4 (by omega)

theorem checkEol_rel (K : TableOk f npos n d) (T : Says F npos d) (W : Within F f0 f) {s t : LuState}
    (h : LR F f npos n d s t) (tok curr eoi : Nat) :
    Rel2 (fun x y => LR F f npos n d x.1 y.1 ∧ y.2 = x.2) (s.checkEol f npos d tok curr eoi)
      (t.checkEol f0 npos d tok curr eoi) := by
  obtain ⟨p0, p1, p2⟩ := h.ok.ptr
  unfold LuState.checkEol
  cases hF : F.eol with
  | true =>
    rw [W.f0]
    simp only [hF, W.eol hF, true_and, h.ptr, h.eol hF]
    split
    · obtain ⟨row, e, r0, he0, g⟩ := K.table.cell (c := ixEol) p1 (by decide)
      rw [g]
      have hlt := K.table.eol _ _ _ p0 r0 he0
      show Rel2 _ (if _ then _ else _) (if _ then _ else _)
      split
      · rename_i hne
        have := endStep_rel K T W (s := { s with eolState := e, ptr := e }) (t := { t with eolState := e, ptr := e })
          ⟨⟨⟨Nat.pos_of_ne_zero hne, hlt, hlt⟩, h.ok.start, h.ok.push⟩, rfl, h.endState, h.id, h.uid, h.bol,
            fun _ => rfl, h.start, h.stk, h.nostk⟩ tok curr
        rw [W.f0, hF] at this
        exact this
      · exact ⟨⟨⟨⟨p0, p1, hlt⟩, h.ok.start, h.ok.push⟩, rfl, h.endState, h.id, h.uid, h.bol,
            fun _ => rfl, h.start, h.stk, h.nostk⟩, rfl⟩
    · exact ⟨h, rfl⟩
  | false =>
    rw [W.f0]
    simp only [hF, Bool.false_eq_true, false_and, if_false]
    split
    · rw [eolCell K T hF p0 p1]
      exact ⟨h.left_eol hF (by omega), rfl⟩
    · exact ⟨h, rfl⟩

/-- What is needed of a machine. -/
def needOf (sm : Internals) : Need :=
  ⟨hasBit sm.features 1, hasBit sm.features 2, decide (1 < sm.dfa.length), hasBit sm.features 32⟩

theorem mem_drop {rows : List Row} {p : Nat} {row : Row} (hp : 0 < p) (hr : rows[p]? = some row) : row ∈ rows.drop 1 := by
  refine List.mem_of_getElem? (i := p - 1) ?_
  rw [List.getElem?_drop, show 1 + (p - 1) = p by omega]
  exact hr

theorem says {sm : Internals} (M : Machine npos sm) (S : FeaturesSay npos sm) {i : Nat} {d : Dfa} (hd : sm.dfaAt i = .ok d) :
    Says (needOf sm) npos d := by
  have hm := dfaAt_mem hd
  refine ⟨?_, ?_, ?_⟩
  · intro h
    unfold Internals.dfaAt at hd
    split at hd
    · rename_i l rows h1 h2
      cases hd
      obtain ⟨row, b, b1, b2, _⟩ := (M.table i l rows h1 h2).1.bol
      have := S.bol h rows (List.mem_of_getElem? h2) row b1
      rw [getCell]
      dsimp only at b1 ⊢
      rw [b1]
      simp only [this]
    · cases hd
  · intro h p row hp hr
    exact S.eol h _ hm row (mem_drop hp hr)
  · intro h p row e hp hr he hne
    exact S.stack h _ hm row (mem_drop hp hr) e he hne

theorem noPops {sm : Internals} (S : FeaturesSay npos sm) (h : hasBit sm.features 32 = false) : NoPops sm := by
  intro rows hrows row hrow e he
  by_cases hne : e = 0
  · subst hne; decide
  · exact (S.stack h rows hrows row hrow e he hne).1

theorem attempt_rel {sm : Internals} (M : Machine npos sm) (S : FeaturesSay npos sm)
    (W : Within (needOf sm) f0 f) {inp : List Nat} (hin : bytes = 1 → ∀ c ∈ inp, c < 256)
    {r r' : Results} (hr : SameResults (needOf sm).bol r r') (he : r.eoi ≤ inp.length) (hs : r.state < sm.dfa.length) {p : Nat} (hp : p ≤ r.eoi) :
    Rel2 (fun x y => (∃ d, LR (needOf sm) f npos sm.dfa.length d x.1 y.1) ∧ y.2 = x.2)
      (attempt f npos bytes sm inp r p p) (attempt f0 npos bytes sm inp r' p p) := by
  unfold attempt
  rw [hr.state, hr.eoi]
  have hf : f.recursive = true ∨ NoPops sm := by
    cases h : hasBit sm.features 32 with
    | true => exact .inl (W.stk h)
    | false => exact .inr (noPops S h)
  obtain ⟨d, d1, K⟩ := M.dfa hf hs
  have T := says M S d1
  rw [d1]
  have two := K.table.two
  show Rel2 _ ((LuState.init d r.bol r.state) >>= _) ((LuState.init d r'.bol r.state) >>= _)
  have hinit : Rel2 (fun s t => LR (needOf sm) f npos sm.dfa.length d s t ∧ s.bol = r.bol ∧ t.bol = r'.bol) (LuState.init d r.bol r.state) (LuState.init d r'.bol r.state) := by
    unfold LuState.init
    obtain ⟨row, e, r0, e0, h⟩ := K.table.cell (c := ixEnd) (p := 1) (by omega) (by decide)
    obtain ⟨_, id, _, _, h1⟩ := K.table.cell (c := ixId) (p := 1) (by omega) (by decide)
    obtain ⟨_, uid, _, _, h2⟩ := K.table.cell (c := ixUserId) (p := 1) (by omega) (by decide)
    obtain ⟨_, pu, a1, a2, h3⟩ := K.table.cell (c := ixPushDfa) (p := 1) (by omega) (by decide)
    rw [h, h1, h2, h3]
    refine ⟨⟨⟨⟨by show 0 < 1; decide, by show 1 < _; omega, by show 0 < _; omega⟩, .inl hs, K.push 1 _ _ (by decide) a1 a2⟩,
      rfl, rfl, rfl, rfl, fun hF => ⟨hr.bol hF, hr.bol hF⟩, fun _ => rfl, fun _ => rfl, fun _ => ⟨rfl, rfl⟩, ?_⟩, rfl, rfl⟩
    intro hF _ hend
    rw [r0] at a1; cases a1
    obtain ⟨x1, x2⟩ := T.stk hF 1 _ _ (by decide) r0 e0 (by simpa using hend)
    rw [a2] at x2
    exact ⟨x1, Option.some.inj x2⟩
  refine hinit.bind ?_
  rintro s0 t0 ⟨h0, hb, hb'⟩
  have hbol : Rel2 (LR (needOf sm) f npos sm.dfa.length d) (s0.bolStartState f d) (t0.bolStartState f0 d) := by
    unfold LuState.bolStartState
    obtain ⟨row, b, b1, b2, b3⟩ := K.table.bol
    have g : getCell d.rows 0 0 = .ok b := by rw [getCell, b1]; simp only [b2]
    cases hF : (needOf sm).bol with
    | true =>
      rw [W.f0]
      simp only [hF, W.bol hF, (h0.bol hF).1, true_and]
      split
      · rw [g]
        show Rel2 _ (if _ then _ else _) (if _ then _ else _)
        split
        · rename_i hne
          exact ⟨⟨⟨Nat.pos_of_ne_zero hne, b3, h0.ok.ptr.2.2⟩, h0.ok.start, h0.ok.push⟩, rfl, h0.endState, h0.id, h0.uid, fun _ => ⟨rfl, (h0.bol hF).2⟩,
            h0.eol, h0.start, h0.stk, h0.nostk⟩
        · exact h0
      · exact h0
    | false =>
      rw [W.f0]
      simp only [hF, Bool.false_eq_true, false_and, if_false]
      split
      · rw [T.bol hF]
        exact h0
      · exact h0
  refine hbol.bind ?_
  intro s1 t1 h1
  refine (scan_rel K T W hin he _ h1 hp).bind ?_
  rintro ⟨s2, curr, tok⟩ ⟨t2, x⟩ ⟨h2, h3⟩
  dsimp only at h3 h2
  subst h3
  have h4 := checkEol_rel K T W h2 tok curr r.eoi
  dsimp only
  revert h4
  generalize LuState.checkEol f npos d s2 tok curr r.eoi = o
  generalize LuState.checkEol f0 npos d t2 tok curr r.eoi = o'
  intro h4
  cases o with
  | ok a =>
    cases o' with
    | ok b => exact ⟨⟨d, h4.1⟩, h4.2⟩
    | error e => cases h4
  | error e =>
    cases o' with
    | ok b => cases h4
    | error e' => exact h4

theorem nextLoop_rel {sm : Internals} (M : Machine npos sm) (S : FeaturesSay npos sm)
    (W : Within (needOf sm) f0 f) {inp : List Nat} (hin : bytes = 1 → ∀ c ∈ inp, c < 256) (fuel : Nat) :
    ∀ {r r' : Results} {p : Nat}, SameResults (needOf sm).bol r r' → Ready sm inp r → p = r.second →
    Rel2 (SameResults (needOf sm).bol) (nextLoop f npos bytes sm inp fuel r p p)
      (nextLoop f0 npos bytes sm inp fuel r' p p) := by
  have hf : f.recursive = true ∨ NoPops sm := by
    cases h : hasBit sm.features 32 with
    | true => exact .inl (W.stk h)
    | false => exact .inr (noPops S h)
  induction fuel with
  | zero => intro r r' p _ _ _; rfl
  | succ fuel ih =>
    intro r r' p hr I hp
    unfold nextLoop
    rw [hr.eoi]
    split
    · exact ⟨rfl, rfl, hr.first, hr.second, rfl, hr.bol, hr.state, hr.stack⟩
    · have hpe : p ≤ r.eoi := by have := I.pos; omega
      have hsafe := attempt_safe M hf hin I.eoi I.state hpe
      have hrel := attempt_rel M S W hin hr I.eoi I.state hpe
      revert hsafe hrel
      cases hx : attempt f npos bytes sm inp r p p with
      | error e =>
        cases attempt f0 npos bytes sm inp r' p p with
        | ok b => intro _ h; cases h
        | error e' => intro _ h; exact h
      | ok x =>
        cases attempt f0 npos bytes sm inp r' p p with
        | error e => intro _ h; cases h
        | ok y =>
          obtain ⟨s, tok⟩ := x
          obtain ⟨t, tok'⟩ := y
          rintro h1 ⟨⟨d, L⟩, h2⟩
          dsimp only at h2 h1 L
          subst h2
          obtain ⟨_, d1, A⟩ := attempt_inv hpe hx
          show Rel2 _ (if _ then _ else _) (if _ then _ else _)
          rw [L.endState]
          split
          · rename_i hend
            have hpop : Rel2 (fun x y => x.1.startState < sm.dfa.length ∧ (∀ e ∈ x.2, e.1 < sm.dfa.length) ∧
                y.2 = x.2 ∧ y.1.id = x.1.id ∧ y.1.uid = x.1.uid ∧
                ((needOf sm).multi = true → y.1.startState = x.1.startState) ∧
                ((needOf sm).bol = true → y.1.endBol = x.1.endBol) ∧
                (∀ eoi, y.1.isIdEoi f0 eoi y.2 = x.1.isIdEoi f eoi x.2))
                (s.popStep f npos r.stack) (t.popStep f0 npos r'.stack) := by
              unfold LuState.popStep LuState.isIdEoi
              rw [hr.stack]
              cases hF : (needOf sm).stk with
              | true =>
                rw [W.f0]
                simp only [hF, W.stk hF, if_true, (L.stk hF).1, (L.stk hF).2]
                split
                · split
                  · rfl
                  · rename_i e st hst
                    exact ⟨I.stack e (by rw [hst]; simp), fun e' h => I.stack e' (by rw [hst]; simp [h]), rfl, L.id, L.uid,
                      fun _ => rfl, fun hB => (L.bol hB).2, fun eoi => by simp only [L.id, (L.stk hF).1]⟩
                · rename_i hnp
                  have h1' := h1.1.resolve_right fun h => hnp h.1
                  split
                  · rename_i hne
                    refine ⟨h1', fun e he => ?_, by rw [L.id], L.id, L.uid, L.start, fun hB => (L.bol hB).2, fun eoi => by simp only [L.id, (L.stk hF).1]⟩
                    rcases List.mem_cons.1 he with rfl | he
                    · exact h1.2.resolve_left hne
                    · exact I.stack e he
                  · exact ⟨h1', I.stack, rfl, L.id, L.uid, L.start, fun hB => (L.bol hB).2, fun eoi => by simp only [L.id, (L.stk hF).1]⟩
              | false =>
                rw [W.f0]
                simp only [hF, Bool.false_eq_true, if_false]
                cases hfr : f.recursive with
                | true =>
                  obtain ⟨q1, q2⟩ := L.nostk hF hfr hend
                  have h1' := h1.1.resolve_right fun h => by rw [q1] at h; cases h.1
                  simp only [q1, q2, Bool.false_eq_true, if_true, if_false, ne_eq, not_true]
                  exact ⟨h1', I.stack, rfl, L.id, L.uid, L.start, fun hB => (L.bol hB).2, fun eoi => by simp [L.id, q1]⟩
                | false =>
                  have h1' := h1.1.resolve_right fun h => by rw [hfr] at h; cases h.2.2
                  simp only [Bool.false_eq_true, if_false]
                  exact ⟨h1', I.stack, rfl, L.id, L.uid, L.start, fun hB => (L.bol hB).2, fun eoi => by simp [L.id]⟩
            refine hpop.bind ?_
            rintro ⟨s', st⟩ ⟨t', st'⟩ ⟨q1, q2, q3, q4, q5, q6, q7, q8⟩
            dsimp only at q1 q2 q3 q4 q5 q6 q7 q8 ⊢
            subst q3
            have hst : (if f0.multiState then t'.startState else r'.state) = (if f.multiState then s'.startState else r.state) := by
              rw [hr.state]
              cases hF : (needOf sm).multi with
              | true =>
                rw [W.f0]
                simp only [hF, W.multi hF, if_true, q6 hF]
              | false =>
                have : sm.dfa.length ≤ 1 := by
                  have := decide_eq_false_iff_not.1 hF
                  omega
                have h5 := I.state
                rw [W.f0]
                simp only [hF, Bool.false_eq_true, if_false]
                split <;> omega
            have hbo : (needOf sm).bol = true → (if f0.bol then t'.endBol else r'.bol) = (if f.bol then s'.endBol else r.bol) := by
              intro hF
              rw [W.f0]
              simp only [hF, W.bol hF, if_true, q7 hF]
            have RD : ∀ a c e, Ready sm inp
                { r with id := c, userId := e, first := a, second := tok', eoi := r.eoi,
                         bol := (if f.bol then s'.endBol else r.bol), state := (if f.multiState then s'.startState else r.state), stack := st' } := by
              intro a c e
              refine ⟨A.hi, I.eoi, ?_, q2⟩
              show (if f.multiState = true then s'.startState else r.state) < _
              split
              · exact q1
              · exact I.state
            rw [q4]
            split
            · refine ih ?_ (RD _ _ _) rfl
              exact ⟨hr.id, hr.userId, rfl, rfl, rfl, hbo, hst, rfl⟩
            · rw [q8]
              split
              · refine ih ?_ (RD _ _ _) rfl
                exact ⟨hr.id, hr.userId, hr.first, rfl, rfl, hbo, hst, rfl⟩
              · exact ⟨rfl, by rw [q5], hr.first, rfl, rfl, hbo, hst, rfl⟩
          · cases charAt inp r.eoi tok' with
            | error e => rfl
            | ok c =>
              exact ⟨rfl, rfl, rfl, by rw [W.f0], rfl, fun _ => rfl, hr.state, hr.stack⟩

end Lexertl.Flg
