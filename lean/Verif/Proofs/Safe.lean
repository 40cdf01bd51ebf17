import Verif.Proofs.WellFormed
import Verif.Proofs.Sim

/-
No access outside a table or the input.
-/
namespace Lexertl
open Spec

/-- No undefined behaviour; a result satisfies `Q`. -/
def Safe {α : Type} (Q : α → Prop) : M α → Prop
  | .ok a => Q a
  | .error (.ub _) => False
  | .error _ => True

theorem Safe.bind {α β : Type} {Q : α → Prop} {S : β → Prop} {x : M α} {g : α → M β} (h : Safe Q x)
    (hg : ∀ a, Q a → Safe S (g a)) : Safe S (x >>= g) := by
  cases x with
  | ok a => exact hg a h
  | error e => cases e <;> first | exact h | trivial

theorem Safe.bind' {α β : Type} {Q : α → Prop} {S : β → Prop} {x : M α} {g : α → M β} (h : Safe Q x)
    (hg : ∀ a, x = .ok a → Q a → Safe S (g a)) : Safe S (x >>= g) := by
  cases x with
  | ok a => exact hg a rfl h
  | error e => cases e <;> first | exact h | trivial

theorem Safe.of_ok {α : Type} {Q : α → Prop} {x : M α} {a : α} (h : x = .ok a) (q : Q a) : Safe Q x := by
  rw [h]; exact q

namespace Spec.Table
variable {npos : Nat} {d : Dfa}

theorem cell (T : Table npos d) {p c : Nat} (hp : p < d.rows.length) (hc : c < 7) :
    ∃ row v, d.rows[p]? = some row ∧ row[c]? = some v ∧ getCell d.rows p c = .ok v := by
  obtain ⟨a, a1, a2, _⟩ := T.width
  have h1 : d.rows[p]? = some d.rows[p] := List.getElem?_eq_getElem hp
  have h2 : d.rows[p][c]? = some (d.rows[p][c]'(by rw [a2 _ (List.getElem_mem hp)]; omega)) :=
    List.getElem?_eq_getElem _
  exact ⟨_, _, h1, h2, by rw [getCell, h1]; simp only [h2]⟩

theorem trans_lt (T : Table npos d) {p col : Nat} (h0 : 0 < p) (hp : p < d.rows.length) (hc : col ∈ d.lookup) :
    ∃ e < d.rows.length, getCell d.rows p col = .ok e := by
  obtain ⟨a, a1, a2, a3⟩ := T.width
  obtain ⟨c1, c2⟩ := a3 col hc
  have h1 : d.rows[p]? = some d.rows[p] := List.getElem?_eq_getElem hp
  have h2 : d.rows[p][col]? = some (d.rows[p][col]'(by rw [a2 _ (List.getElem_mem hp)]; omega)) :=
    List.getElem?_eq_getElem _
  refine ⟨_, ?_, by rw [getCell, h1]; simp only [h2]; rfl⟩
  rcases Nat.lt_or_eq_of_le c1 with h | h
  · exact T.trans p _ col _ h0 h1 h h2
  · subst h
    rw [T.dead p _ _ h0 h1 h2]
    omega

end Spec.Table

/-- The lookup state: its row numbers are those of rows, its lexer states exist. -/
structure LuOk (f : Flags) (npos n : Nat) (d : Dfa) (s : LuState) : Prop where
  ptr : Sim.In d s
  start : s.startState < n ∨ s.pop = true ∧ f.multiState = true ∧ f.recursive = true
  push : s.pushDfa = npos ∨ s.pushDfa < n

/-- One table of a machine with `n` lexer states. -/
structure TableOk (f : Flags) (npos n : Nat) (d : Dfa) : Prop where
  table : Table npos d
  chars : d.lookup.length = 256
  next : ∀ p row e s, 0 < p → d.rows[p]? = some row → row[ixEnd]? = some e → row[ixNextDfa]? = some s →
    s < n ∨ hasBit e bitPop = true ∧ f.recursive = true
  push : ∀ p row s, 0 < p → d.rows[p]? = some row → row[ixPushDfa]? = some s → s = npos ∨ s < n

variable {npos n : Nat} {d : Dfa} {f : Flags} {bytes : Nat}

theorem endStep_safe (K : TableOk f npos n d) {s : LuState} (I : LuOk f npos n d s) (tok curr : Nat) :
    Safe (fun x => LuOk f npos n d x.1) (s.endStep f d tok curr) := by
  unfold LuState.endStep
  obtain ⟨p0, p1, _⟩ := I.ptr
  obtain ⟨row, e, r0, he0, h⟩ := K.table.cell (c := ixEnd) p1 (by decide)
  refine (Safe.of_ok h he0 : Safe (fun e => row[ixEnd]? = some e) _).bind fun e he => ?_
  split
  · obtain ⟨_, id, _, _, h⟩ := K.table.cell (c := ixId) p1 (by decide)
    refine (Safe.of_ok h trivial : Safe (fun _ => True) _).bind fun _ _ => ?_
    obtain ⟨_, _, _, _, h⟩ := K.table.cell (c := ixUserId) p1 (by decide)
    refine (Safe.of_ok h trivial : Safe (fun _ => True) _).bind fun _ _ => ?_
    obtain ⟨_, a, a1, a2, h⟩ := K.table.cell (c := ixPushDfa) p1 (by decide)
    refine (Safe.of_ok h (K.push _ _ _ p0 a1 a2) : Safe (fun v => v = npos ∨ v < n) _).bind fun v hv => ?_
    obtain ⟨_, b, b1, b2, h⟩ := K.table.cell (c := ixNextDfa) p1 (by decide)
    rw [r0] at b1
    cases b1
    refine (Safe.of_ok h (K.next _ _ _ _ p0 r0 he b2) :
      Safe (fun v => v < n ∨ hasBit e bitPop = true ∧ f.recursive = true) _).bind fun w hw => ?_
    refine ⟨I.ptr, ?_, ?_⟩
    · show (if f.multiState = true then w else s.startState) < n ∨
        (if f.recursive = true then hasBit e bitPop else s.pop) = true ∧ f.multiState = true ∧ f.recursive = true
      by_cases hm : f.multiState = true
      · rw [if_pos hm]
        rcases hw with hw | ⟨hw, hr⟩
        · exact .inl hw
        · right
          rw [if_pos hr]
          exact ⟨hw, hm, hr⟩
      · rw [if_neg hm]
        rcases I.start with h | ⟨_, h, _⟩
        · exact .inl h
        · exact absurd h hm
    · show (if f.recursive = true then v else s.pushDfa) = npos ∨ (if f.recursive = true then v else s.pushDfa) < n
      split
      · exact hv
      · exact I.push
  · exact I

theorem isEol_safe (K : TableOk f npos n d) {s : LuState} (I : LuOk f npos n d s) (c : Option Nat) :
    Safe (fun x => LuOk f npos n d x.1) (s.isEol f d c) := by
  unfold LuState.isEol
  obtain ⟨p0, p1, p2⟩ := I.ptr
  split
  · obtain ⟨row, e, r0, r1, h⟩ := K.table.cell (c := ixEol) p1 (by decide)
    refine (Safe.of_ok h (K.table.eol _ _ _ p0 r0 r1) : Safe (fun e => e < d.rows.length) _).bind fun e he => ?_
    dsimp only
    split
    · rename_i hh
      exact ⟨⟨Nat.pos_of_ne_zero hh.1, he, he⟩, I.start, I.push⟩
    · exact ⟨⟨p0, p1, he⟩, I.start, I.push⟩
  · exact I

theorem step_safe (K : TableOk f npos n d) {p c : Nat} (h0 : 0 < p) (hp : p < d.rows.length) (hc : c < 256) :
    Safe (fun e => e < d.rows.length) (LuState.step d p c) := by
  unfold LuState.step
  have h1 : d.lookup[c]? = some (d.lookup[c]'(by rw [K.chars]; exact hc)) := List.getElem?_eq_getElem _
  rw [h1]
  obtain ⟨e, e1, e2⟩ := K.table.trans_lt h0 hp (List.mem_of_getElem? h1)
  exact Safe.of_ok e2 e1

theorem stepBytes_safe (K : TableOk f npos n d) (bs : List Nat) : ∀ {p st : Nat}, 0 < p → p < d.rows.length →
    (∀ b ∈ bs, b < 256) → Safe (fun x => 0 < x.1 ∧ x.1 < d.rows.length) (LuState.stepBytes d p bs st) := by
  induction bs with
  | nil => intro p st h0 hp _; exact ⟨h0, hp⟩
  | cons b bs ih =>
    intro p st h0 hp hb
    unfold LuState.stepBytes
    refine (step_safe K h0 hp (hb b (by simp))).bind fun e he => ?_
    split
    · exact ⟨h0, hp⟩
    · exact ih (Nat.pos_of_ne_zero (by assumption)) he (fun b h => hb b (by simp [h]))

theorem nextChar_safe (K : TableOk f npos n d) {s : LuState} (I : LuOk f npos n d s) {c : Nat} (hc : bytes = 1 → c < 256) :
    Safe (fun x => LuOk f npos n d x.1) (s.nextChar bytes d c) := by
  unfold LuState.nextChar
  obtain ⟨p0, p1, p2⟩ := I.ptr
  split
  · rename_i hb
    refine (step_safe K p0 p1 (hc hb)).bind fun e he => ?_
    split
    · rename_i hne
      exact ⟨⟨Nat.pos_of_ne_zero hne, he, p2⟩, I.start, I.push⟩
    · exact I
  · refine (stepBytes_safe K _ p0 p1 ?_).bind fun x hx => ?_
    · intro b hb
      obtain ⟨i, _, rfl⟩ := List.mem_map.1 hb
      exact Nat.mod_lt _ (by decide)
    · exact ⟨⟨hx.1, hx.2, p2⟩, I.start, I.push⟩

theorem charAt_safe {inp : List Nat} {eoi p : Nat} (h1 : p < eoi) (h2 : eoi ≤ inp.length) :
    Safe (fun c => c ∈ inp) (charAt inp eoi p) := by
  unfold charAt
  have h : inp[p]? = some (inp[p]'(by omega)) := List.getElem?_eq_getElem _
  rw [if_pos h1, h]
  exact List.mem_of_getElem? h

theorem scan_safe (K : TableOk f npos n d) {inp : List Nat} (hin : bytes = 1 → ∀ c ∈ inp, c < 256) {eoi : Nat}
    (he : eoi ≤ inp.length) (fuel : Nat) : ∀ {s : LuState} {curr tok : Nat}, LuOk f npos n d s → curr ≤ eoi →
    Safe (fun x => LuOk f npos n d x.1) (s.scan f bytes d inp eoi fuel curr tok) := by
  induction fuel with
  | zero => intro s curr tok _ _; trivial
  | succ fuel ih =>
    intro s curr tok I hc
    unfold LuState.scan
    split
    · exact I
    · refine (charAt_safe (by omega) he).bind fun c hci => ?_
      refine (isEol_safe K I _).bind fun x hx => ?_
      obtain ⟨s', b⟩ := x
      dsimp only at hx ⊢
      split
      · exact (endStep_safe K hx _ _).bind fun y hy => ih hy hc
      · refine (nextChar_safe K hx (fun h => hin h c hci)).bind fun y hy => ?_
        obtain ⟨s', b⟩ := y
        dsimp only at hy ⊢
        have hz : LuOk f npos n d (if f.bol = true then { s' with bol := c == 10 } else s') := by
          split
          · exact ⟨hy.ptr, hy.start, hy.push⟩
          · exact hy
        split
        · exact (isEol_safe K hz _).bind fun z hz => hz
        · exact (endStep_safe K hz _ _).bind fun z hz => ih hz (by omega)

theorem checkEol_safe (K : TableOk f npos n d) {s : LuState} (I : LuOk f npos n d s) (tok curr eoi : Nat) :
    Safe (fun x => LuOk f npos n d x.1) (s.checkEol f npos d tok curr eoi) := by
  unfold LuState.checkEol
  obtain ⟨p0, p1, p2⟩ := I.ptr
  split
  · obtain ⟨row, e, r0, r1, h⟩ := K.table.cell (c := ixEol) p1 (by decide)
    refine (Safe.of_ok h (K.table.eol _ _ _ p0 r0 r1) : Safe (fun e => e < d.rows.length) _).bind fun e he => ?_
    dsimp only
    split
    · rename_i hne
      exact endStep_safe (s := { s with eolState := e, ptr := e }) K
        ⟨⟨Nat.pos_of_ne_zero hne, he, he⟩, I.start, I.push⟩ _ _
    · exact ⟨⟨p0, p1, he⟩, I.start, I.push⟩
  · exact I

theorem Spec.Machine.dfa {sm : Internals} (M : Machine npos sm) (hf : f.recursive = true ∨ NoPops sm) {i : Nat}
    (hi : i < sm.dfa.length) :
    ∃ d, sm.dfaAt i = .ok d ∧ TableOk f npos sm.dfa.length d := by
  have h1 : sm.dfa[i]? = some sm.dfa[i] := List.getElem?_eq_getElem hi
  have h2 : sm.lookup[i]? = some (sm.lookup[i]'(by rw [M.states.1]; exact hi)) := List.getElem?_eq_getElem _
  obtain ⟨t1, t2⟩ := M.table i _ _ h2 h1
  have hd : ∀ (p : Nat) row, 0 < p → sm.dfa[i][p]? = some row → row ∈ sm.dfa[i].drop 1 := by
    intro p row hp hr
    refine List.mem_of_getElem? (i := p - 1) ?_
    rw [List.getElem?_drop, show 1 + (p - 1) = p by omega]
    exact hr
  refine ⟨_, by rw [Internals.dfaAt, h2, h1], t1, t2, ?_, ?_⟩
  · intro p row e s hp hr he hs
    rcases M.next _ (List.getElem_mem hi) row (hd p row hp hr) e s he hs with h | h
    · rcases hf with hf | hf
      · exact .inr ⟨h, hf⟩
      · rw [hf _ (List.getElem_mem hi) row (hd p row hp hr) e he] at h
        cases h
    · exact .inl h
  · intro p row s hp hr hs
    exact M.push _ (List.getElem_mem hi) row (hd p row hp hr) s hs

theorem attempt_safe {sm : Internals} (M : Machine npos sm) (hf : f.recursive = true ∨ NoPops sm) {inp : List Nat} (hin : bytes = 1 → ∀ c ∈ inp, c < 256)
    {r : Results} (he : r.eoi ≤ inp.length) (hs : r.state < sm.dfa.length) {p : Nat} (hp : p ≤ r.eoi) :
    Safe (fun x => (x.1.startState < sm.dfa.length ∨ x.1.pop = true ∧ f.multiState = true ∧ f.recursive = true) ∧
        (x.1.pushDfa = npos ∨ x.1.pushDfa < sm.dfa.length))
      (attempt f npos bytes sm inp r p p) := by
  unfold attempt
  obtain ⟨d, d1, K⟩ := M.dfa hf hs
  rw [d1]
  have two := K.table.two
  show Safe _ ((LuState.init d r.bol r.state) >>= _)
  have hinit : Safe (LuOk f npos sm.dfa.length d) (LuState.init d r.bol r.state) := by
    unfold LuState.init
    obtain ⟨_, _, _, _, h⟩ := K.table.cell (c := ixEnd) (p := 1) (by omega) (by decide)
    refine (Safe.of_ok h trivial : Safe (fun _ => True) _).bind fun _ _ => ?_
    obtain ⟨_, _, _, _, h⟩ := K.table.cell (c := ixId) (p := 1) (by omega) (by decide)
    refine (Safe.of_ok h trivial : Safe (fun _ => True) _).bind fun _ _ => ?_
    obtain ⟨_, _, _, _, h⟩ := K.table.cell (c := ixUserId) (p := 1) (by omega) (by decide)
    refine (Safe.of_ok h trivial : Safe (fun _ => True) _).bind fun _ _ => ?_
    obtain ⟨_, _, a1, a2, h⟩ := K.table.cell (c := ixPushDfa) (p := 1) (by omega) (by decide)
    refine (Safe.of_ok h (K.push 1 _ _ (by decide) a1 a2) :
      Safe (fun v => v = npos ∨ v < sm.dfa.length) _).bind fun v hv => ?_
    exact ⟨⟨by show 0 < 1; decide, by show 1 < _; omega, by show 0 < _; omega⟩, .inl hs, hv⟩
  refine hinit.bind fun s0 I0 => ?_
  have hbol : Safe (LuOk f npos sm.dfa.length d) (s0.bolStartState f d) := by
    unfold LuState.bolStartState
    split
    · obtain ⟨row, b, b1, b2, b3⟩ := K.table.bol
      refine (Safe.of_ok (show getCell d.rows 0 0 = .ok b by rw [getCell, b1]; simp only [b2]) b3 :
        Safe (fun b => b < d.rows.length) _).bind fun b hb => ?_
      split
      · rename_i hne
        exact ⟨⟨Nat.pos_of_ne_zero hne, hb, I0.ptr.2.2⟩, I0.start, I0.push⟩
      · exact I0
    · exact I0
  refine hbol.bind fun s1 I1 => ?_
  refine (scan_safe K hin he _ I1 hp).bind fun x I2 => ?_
  obtain ⟨s2, curr, tok⟩ := x
  have := checkEol_safe (f := f) K I2 tok curr r.eoi
  revert this
  dsimp only
  generalize LuState.checkEol f npos d s2 tok curr r.eoi = o
  intro this
  cases o with
  | ok y => exact ⟨this.start, this.push⟩
  | error e => cases e <;> first | exact this | trivial

theorem nextLoop_safe {sm : Internals} (M : Machine npos sm) (hf : f.recursive = true ∨ NoPops sm) {inp : List Nat} (hin : bytes = 1 → ∀ c ∈ inp, c < 256)
    (fuel : Nat) : ∀ {r : Results} {p : Nat}, Ready sm inp r → p = r.second →
    Safe (Ready sm inp) (nextLoop f npos bytes sm inp fuel r p p) := by
  induction fuel with
  | zero => intro r p _ _; trivial
  | succ fuel ih =>
    intro r p I hp
    unfold nextLoop
    split
    · exact ⟨I.pos, I.eoi, I.state, I.stack⟩
    · have hpe : p ≤ r.eoi := by have := I.pos; omega
      refine (attempt_safe M hf hin I.eoi I.state hpe).bind' fun x hx h1 => ?_
      obtain ⟨s, tok⟩ := x
      obtain ⟨d, d1, A⟩ := attempt_inv hpe hx
      dsimp only at h1 A ⊢
      split
      · have hpop : Safe (fun y => y.1.startState < sm.dfa.length ∧ ∀ e ∈ y.2, e.1 < sm.dfa.length)
            (s.popStep f npos r.stack) := by
          unfold LuState.popStep
          split
          · split
            · split
              · trivial
              · rename_i e st hst
                exact ⟨I.stack e (by rw [hst]; simp), fun e' h => I.stack e' (by rw [hst]; simp [h])⟩
            · rename_i hnp
              have h1' := h1.1.resolve_right fun h => hnp h.1
              split
              · rename_i hne
                refine ⟨h1', fun e he => ?_⟩
                rcases List.mem_cons.1 he with rfl | he
                · exact h1.2.resolve_left hne
                · exact I.stack e he
              · exact ⟨h1', I.stack⟩
          · rename_i hnr
            exact ⟨h1.1.resolve_right fun h => hnr h.2.2, I.stack⟩
        refine hpop.bind fun y hy => ?_
        obtain ⟨s', st⟩ := y
        dsimp only at hy ⊢
        have I' : ∀ (a : Nat) b (c : Nat) (e : Nat), Ready sm inp { r with
            stack := st, state := (if f.multiState = true then s'.startState else r.state),
            bol := b, second := tok, first := a, id := c, userId := e } := by
          intro a b c e
          refine ⟨A.hi, I.eoi, ?_, hy.2⟩
          show (if f.multiState = true then s'.startState else r.state) < _
          split
          · exact hy.1
          · exact I.state
        split
        · exact ih (I' _ _ _ _) rfl
        · split
          · exact ih (I' _ _ _ _) rfl
          · exact I' _ _ _ _
      · rename_i hend
        have ht := A.none (by simpa using hend)
        refine (charAt_safe (by omega) I.eoi).bind fun c _ => ?_
        refine ⟨?_, I.eoi, I.state, I.stack⟩
        show (if f.advance = true then tok + 1 else tok) ≤ r.eoi
        split <;> omega

theorem lookup_safe {sm : Internals} (M : Machine npos sm) (hf : f.recursive = true ∨ NoPops sm) {inp : List Nat} (hin : bytes = 1 → ∀ c ∈ inp, c < 256)
    (fuel : Nat) {r : Results} (I : Ready sm inp r) : Safe (Ready sm inp) (lookupFuel f npos bytes sm inp fuel r) :=
  nextLoop_safe M hf hin fuel ⟨I.pos, I.eoi, I.state, I.stack⟩ rfl

/-- A built machine. -/
theorem buildTemp_machine {tr : Traits} {addr : Nat → Nat} {R : Rules} {sm : Internals}
    (hR : TargetsExist tr.npos R) (h : buildTemp tr addr R = .ok sm) :
    Machine tr.npos sm ∧ sm.dfa.length = R.states.length := by
  by_cases h0 : R.states.length = 0
  · obtain ⟨outs, o1, o2, _⟩ := buildTemp_ok (T := fun _ _ _ => True) trivial (fun _ _ _ _ => trivial) h
    rw [h0] at o2
    have : outs = [] := List.eq_nil_of_length_eq_zero o2
    subst this
    subst o1
    refine ⟨⟨⟨rfl, rfl⟩, ?_, ?_, ?_, ?_⟩, by rw [h0]; rfl⟩ <;> simp [createInternals]
  · obtain ⟨outs, o1, o2, o3⟩ := buildTemp_ok
      (T := fun p a b => (a = tr.npos ∨ a < R.states.length) ∧ (p = true ∨ b < R.states.length))
      ⟨.inr (by omega), .inr (by omega)⟩ (fun rs hrs r hr => ⟨(hR rs hrs r hr).2, (hR rs hrs r hr).1⟩) h
    subst o1
    have hlen : (createInternals R outs).dfa.length = R.states.length := by simp [createInternals, o2]
    have hdrop : ∀ {rows : List Row} {row}, row ∈ rows.drop 1 → ∃ p, 0 < p ∧ rows[p]? = some row := by
      intro rows row hr
      obtain ⟨k, hk⟩ := List.mem_iff_getElem?.1 hr
      rw [List.getElem?_drop] at hk
      exact ⟨1 + k, by omega, hk⟩
    refine ⟨⟨⟨by simp [createInternals], by simp [createInternals]⟩, ?_, ?_, ?_, ?_⟩, hlen⟩
    · intro i l rows hl hr
      simp only [createInternals, List.getElem?_map] at hl hr
      obtain ⟨o, q1, q2⟩ := Option.map_eq_some_iff.1 hl
      obtain ⟨o', q3, q4⟩ := Option.map_eq_some_iff.1 hr
      rw [q1] at q3
      cases q3
      subst q2 q4
      have O := o3 o (List.mem_of_getElem? q1)
      refine ⟨⟨O.two, Nat.le_of_lt O.few, ⟨_, O.wide, O.rows.width, O.cols⟩, O.rows.bol, ?_, ?_, ?_⟩, O.chars⟩
      · intro p row e _ h1 h2; exact O.rows.num p row 5 e h1 h2 (.inl rfl)
      · intro p row e _ h1 h2; exact O.rows.dead p row e h1 h2
      · intro p row c e _ h1 h2 h3; exact O.rows.num p row c e h1 h3 (.inr h2)
    · intro i a rows hl hr
      simp only [createInternals, List.getElem?_map] at hl hr
      obtain ⟨o, q1, q2⟩ := Option.map_eq_some_iff.1 hl
      obtain ⟨o', q3, q4⟩ := Option.map_eq_some_iff.1 hr
      rw [q1] at q3
      cases q3
      subst q2 q4
      exact (o3 o (List.mem_of_getElem? q1)).rows.width
    · intro rows hrows row hrow e s he hs
      rw [hlen]
      simp only [createInternals, List.mem_map] at hrows
      obtain ⟨o, q1, rfl⟩ := hrows
      have O := o3 o q1
      obtain ⟨p, p1, p2⟩ := hdrop hrow
      have hw := O.rows.width row (List.mem_of_getElem? p2)
      have := O.wide
      exact (O.rows.tgt p row e _ s p1 p2 he (List.getElem?_eq_getElem (by omega)) hs).2
    · intro rows hrows row hrow s hs
      rw [hlen]
      simp only [createInternals, List.mem_map] at hrows
      obtain ⟨o, q1, rfl⟩ := hrows
      have O := o3 o q1
      obtain ⟨p, p1, p2⟩ := hdrop hrow
      have hw := O.rows.width row (List.mem_of_getElem? p2)
      have := O.wide
      exact (O.rows.tgt p row _ s _ p1 p2 (List.getElem?_eq_getElem (by omega)) hs
        (List.getElem?_eq_getElem (by omega))).1

end Lexertl
