import Verif.Proofs.Calls

/-
The bound on the scanning loop is exact: if it is exceeded, the loop of the program
never ends.
-/
namespace Lexertl
open Spec

/-- `k`-fold iteration of a partial function. -/
def iter (g : Nat → Option Nat) : Nat → Nat → Option Nat
  | 0, p => some p
  | k + 1, p => (g p).bind (iter g k)

theorem iter_succ {g : Nat → Option Nat} {k p : Nat} :
    (iter g (k + 1) p).isSome = true ↔ ∃ e, g p = some e ∧ (iter g k e).isSome = true := by
  rw [iter]
  cases g p <;> simp

theorem iter_down {g : Nat → Option Nat} (k : Nat) :
    ∀ {p : Nat}, (iter g (k + 1) p).isSome = true → (iter g k p).isSome = true := by
  induction k with
  | zero => intro p _; rfl
  | succ k ih =>
    intro p h
    obtain ⟨e, h1, h2⟩ := iter_succ.1 h
    exact iter_succ.2 ⟨e, h1, ih h2⟩

theorem countP_eq {α : Type} {p q : α → Bool} {l : List α} (h : ∀ x ∈ l, p x = true → q x = true)
    (hc : l.countP q ≤ l.countP p) : ∀ x ∈ l, q x = true → p x = true := by
  induction l with
  | nil => simp
  | cons a l ih =>
    rw [List.countP_cons, List.countP_cons] at hc
    have hm : l.countP p ≤ l.countP q := List.countP_mono_left fun x hx => h x (List.mem_cons_of_mem _ hx)
    have ha := h a (List.mem_cons_self ..)
    intro x hx hq
    rcases List.mem_cons.1 hx with rfl | hx
    · cases hp : p x with
      | true => rfl
      | false => simp [hp, hq] at hc; omega
    · refine ih (fun x hx => h x (List.mem_cons_of_mem _ hx)) ?_ x hx hq
      cases hp : p a with
      | false =>
        cases hq' : q a <;> simp [hp, hq'] at hc <;> omega
      | true => simp [hp, ha hp] at hc; omega

theorem iter_forever {g : Nat → Option Nat} {n : Nat} (hg : ∀ p e, g p = some e → p < n) {p : Nat}
    (h : (iter g (n + 1) p).isSome = true) (k : Nat) : (iter g k p).isSome = true := by
  have key : ∀ j, (∃ k, 1 ≤ k ∧ k ≤ j ∧ ∀ p, (iter g k p).isSome = true → (iter g (k + 1) p).isSome = true) ∨
      (List.range n).countP (fun p => (iter g (j + 1) p).isSome) ≤ n - j := by
    intro j
    induction j with
    | zero =>
      refine .inr ?_
      have := List.countP_le_length (p := fun p => (iter g (0 + 1) p).isSome) (l := List.range n)
      rw [List.length_range] at this
      omega
    | succ j ih =>
      rcases ih with ⟨k, h1, h2, h3⟩ | ih
      · exact .inl ⟨k, h1, by omega, h3⟩
      · by_cases hc : (List.range n).countP (fun p => (iter g (j + 1) p).isSome) ≤
            (List.range n).countP (fun p => (iter g (j + 1 + 1) p).isSome)
        · refine .inl ⟨j + 1, by omega, by omega, fun p hp => ?_⟩
          have hpn : p < n := by
            obtain ⟨e, h1, _⟩ := iter_succ.1 hp
            exact hg p e h1
          exact countP_eq (fun x _ => iter_down (j + 1)) hc p (List.mem_range.2 hpn) hp
        · exact .inr (by omega)
  have stable : ∀ {k : Nat}, (∀ p, (iter g k p).isSome = true → (iter g (k + 1) p).isSome = true) →
      ∀ m p, (iter g k p).isSome = true → (iter g (k + m) p).isSome = true := by
    intro k hk m
    have hk' : ∀ m p, (iter g (k + m) p).isSome = true → (iter g (k + m + 1) p).isSome = true := by
      intro m
      induction m with
      | zero => exact hk
      | succ m ih =>
        intro p hp
        obtain ⟨e, h1, h2⟩ := iter_succ.1 hp
        exact iter_succ.2 ⟨e, h1, ih e h2⟩
    induction m with
    | zero => intro p hp; exact hp
    | succ m ih => intro p hp; exact hk' m p (ih p hp)
  have down : ∀ m k, (iter g (k + m) p).isSome = true → (iter g k p).isSome = true := by
    intro m
    induction m with
    | zero => intro k h; exact h
    | succ m ih => intro k h; exact ih k (iter_down _ h)
  rcases key n with ⟨j, h1, h2, h3⟩ | h0
  · have hj := down (n + 1 - j) j (by rw [show j + (n + 1 - j) = n + 1 by omega]; exact h)
    by_cases hkj : k ≤ j
    · exact down (j - k) k (by rw [show k + (j - k) = j by omega]; exact hj)
    · have := stable h3 (k - j) p hj
      rwa [show j + (k - j) = k by omega] at this
  · exfalso
    have hpn : p < n := by
      obtain ⟨e, h1, _⟩ := iter_succ.1 h
      exact hg p e h1
    have := List.countP_pos_iff (p := fun p => (iter g (n + 1) p).isSome) |>.2 ⟨p, List.mem_range.2 hpn, h⟩
    omega

/-- All cells `end_state` reads are there. -/
def rowOk (rows : List Row) (e : Nat) : Bool :=
  match getCell rows e ixEnd with
  | .ok v => v == 0 || ((getCell rows e ixId).isOk && (getCell rows e ixUserId).isOk &&
      (getCell rows e ixPushDfa).isOk && (getCell rows e ixNextDfa).isOk)
  | .error _ => false

theorem endStep_isOk (f : Flags) (d : Dfa) (s : LuState) (tok curr : Nat) :
    (s.endStep f d tok curr).isOk = rowOk d.rows s.ptr := by
  unfold LuState.endStep rowOk
  cases getCell d.rows s.ptr ixEnd with
  | error e => rfl
  | ok v =>
    simp only [bind, Except.bind]
    by_cases hv : v = 0
    · simp [hv, Except.isOk, Except.toBool]
    · simp only [hv, ne_eq, not_false_eq_true, if_true]
      cases getCell d.rows s.ptr ixId with
      | error e => simp [Except.isOk, Except.toBool, hv]
      | ok a =>
        cases getCell d.rows s.ptr ixUserId with
        | error e => simp [Except.isOk, Except.toBool, hv]
        | ok b =>
          cases getCell d.rows s.ptr ixPushDfa with
          | error e => simp [Except.isOk, Except.toBool, hv]
          | ok c =>
            cases getCell d.rows s.ptr ixNextDfa with
            | error e => simp [Except.isOk, Except.toBool, hv]
            | ok d => simp [Except.isOk, Except.toBool, hv]

/-- The row an end of line step leads to from row `p` when the next character is `c`. -/
def eolNext (f : Flags) (d : Dfa) (c p : Nat) : Option Nat :=
  if f.eol then
    match getCell d.rows p ixEol with
    | .ok e => if e ≠ 0 ∧ (c = 13 ∨ c = 10) ∧ rowOk d.rows e = true then some e else none
    | .error _ => none
  else none

theorem eolNext_lt {f : Flags} {d : Dfa} {c p e : Nat} (h : eolNext f d c p = some e) : p < d.rows.length := by
  unfold eolNext at h
  split at h
  · split at h
    · rename_i hg
      unfold getCell at hg
      split at hg
      · cases hg
      · rename_i hr
        exact (List.getElem?_eq_some_iff.1 hr).1
    · cases h
  · cases h

variable {f : Flags} {bytes : Nat} {d : Dfa} {inp : List Nat} {eoi : Nat}

theorem scan_eolNext {s : LuState} {curr tok c e : Nat} (hlt : curr ≠ eoi) (hc : charAt inp eoi curr = .ok c)
    (h : eolNext f d c s.ptr = some e) : ∃ (s' : LuState) (tok' : Nat), s'.ptr = e ∧
      ∀ F, s.scan f bytes d inp eoi (F + 1) curr tok = s'.scan f bytes d inp eoi F curr tok' := by
  unfold eolNext at h
  split at h
  · rename_i hf
    split at h
    · rename_i e' hg
      split at h
      · rename_i he
        cases h
        have hok := endStep_isOk f d { s with ptr := e, eolState := e } tok curr
        rw [he.2.2] at hok
        cases hes : LuState.endStep f d { s with ptr := e, eolState := e } tok curr with
        | error x => rw [hes] at hok; cases hok
        | ok x =>
          obtain ⟨s', tok'⟩ := x
          refine ⟨s', tok', endStep_ptr hes, fun F => ?_⟩
          have hi : s.isEol f d (some c) = .ok ({ s with ptr := e, eolState := e }, true) := by
            unfold LuState.isEol
            rw [if_pos hf, hg]
            simp only [bind, Except.bind]
            rw [if_pos ⟨he.1, by simpa using he.2.1⟩]
          rw [LuState.scan, if_neg hlt, hc]
          simp only [bind, Except.bind, hi, if_true, hes]
      · cases h
    · cases h
  · cases h

theorem scan_noEolNext {s : LuState} {curr tok c : Nat} (hlt : curr ≠ eoi) (hc : charAt inp eoi curr = .ok c)
    (h : eolNext f d c s.ptr = none) :
    (∃ o, o ≠ .error .fuel ∧ ∀ F, s.scan f bytes d inp eoi (F + 1) curr tok = o) ∨
    (∃ (s' : LuState) (tok' : Nat), ∀ F, s.scan f bytes d inp eoi (F + 1) curr tok = s'.scan f bytes d inp eoi F (curr + 1) tok') := by
  cases hi : s.isEol f d (some c) with
  | error x =>
    refine .inl ⟨.error x, (fun h => by cases h; exact isEol_fuel hi), fun F => ?_⟩
    rw [LuState.scan, if_neg hlt, hc]
    simp only [bind, Except.bind, hi]
  | ok x =>
    obtain ⟨s1, eol⟩ := x
    cases eol with
    | true =>
      cases he : s1.endStep f d tok curr with
      | error x =>
        refine .inl ⟨.error x, (fun h => by cases h; exact endStep_fuel he), fun F => ?_⟩
        rw [LuState.scan, if_neg hlt, hc]
        simp only [bind, Except.bind, hi, he, if_true]
      | ok y =>
        exfalso
        unfold LuState.isEol at hi
        unfold eolNext at h
        split at hi
        · rename_i hf
          rw [if_pos hf] at h
          obtain ⟨e, hg, hi⟩ := bind_ok hi
          rw [hg] at h
          dsimp only at hi h
          split at hi
          · rename_i hcond
            cases hi
            have hok := endStep_isOk f d { s with ptr := e, eolState := e } tok curr
            rw [he] at hok
            rw [if_pos ⟨hcond.1, by simpa using hcond.2, hok.symm⟩] at h
            cases h
          · cases hi
        · cases hi
    | false =>
      cases hn : s1.nextChar bytes d c with
      | error x =>
        refine .inl ⟨.error x, (fun h => by cases h; exact nextChar_fuel hn), fun F => ?_⟩
        rw [LuState.scan, if_neg hlt, hc]
        simp only [bind, Except.bind, hi, hn, Bool.false_eq_true, if_false]
      | ok y =>
        obtain ⟨s2, st⟩ := y
        generalize hs3 : (if f.bol then { s2 with bol := c == 10 } else s2) = s3
        by_cases hst : st = 0
        · refine .inl ⟨s3.isEol f d none >>= fun x => .ok (x.1, curr, tok), ?_, fun F => ?_⟩
          · intro h
            rcases bind_error h with h | ⟨_, _, h⟩
            · exact isEol_fuel h
            · cases h
          · rw [LuState.scan, if_neg hlt, hc]
            simp only [bind, Except.bind, hi, hn, Bool.false_eq_true, if_false, hs3, hst, if_true]
        · cases he : s3.endStep f d tok (curr + 1) with
          | error x =>
            refine .inl ⟨.error x, (fun h => by cases h; exact endStep_fuel he), fun F => ?_⟩
            rw [LuState.scan, if_neg hlt, hc]
            simp only [bind, Except.bind, hi, hn, Bool.false_eq_true, if_false, hs3, hst, he]
          | ok z =>
            obtain ⟨s4, tok'⟩ := z
            refine .inr ⟨s4, tok', fun F => ?_⟩
            rw [LuState.scan, if_neg hlt, hc]
            simp only [bind, Except.bind, hi, hn, Bool.false_eq_true, if_false, hs3, hst, he]

/-- Running out of the bound `scanFuel` means running forever. -/
theorem scan_forever (m : Nat) : ∀ {s : LuState} {curr tok F : Nat}, eoi - curr ≤ m →
    (m + 1) * (d.rows.length + 1) + 1 ≤ F → s.scan f bytes d inp eoi F curr tok = .error .fuel →
    ∀ F', s.scan f bytes d inp eoi F' curr tok = .error .fuel := by
  induction m with
  | zero =>
    intro s curr tok F hm hF h F'
    obtain ⟨F, rfl⟩ : ∃ n, F = n + 1 := ⟨F - 1, by omega⟩
    rw [LuState.scan] at h
    split at h
    · cases h
    · rename_i hne
      have : charAt inp eoi curr = .error (.ub "dereference of eoi") := by
        unfold charAt
        rw [if_neg (by omega)]
      rw [this] at h
      cases h
  | succ m ih =>
    intro s curr tok F hm hF h F'
    by_cases hlt : curr = eoi
    · obtain ⟨F, rfl⟩ : ∃ n, F = n + 1 := ⟨F - 1, by omega⟩
      rw [LuState.scan, if_pos hlt] at h
      cases h
    cases hc : charAt inp eoi curr with
    | error x =>
      obtain ⟨F, rfl⟩ : ∃ n, F = n + 1 := ⟨F - 1, by omega⟩
      rw [LuState.scan, if_neg hlt, hc] at h
      simp only [bind, Except.bind] at h
      cases h
      exact absurd hc charAt_fuel
    | ok c =>
      by_cases hit : (iter (eolNext f d c) (d.rows.length + 1) s.ptr).isSome = true
      · have hall := iter_forever (fun p e => eolNext_lt) hit
        clear hit h hF hm
        induction F' generalizing s tok with
        | zero => rfl
        | succ F' ihF =>
          obtain ⟨e, he, _⟩ := iter_succ.1 (hall 1)
          obtain ⟨s', tok', h1, h2⟩ := scan_eolNext (bytes := bytes) (tok := tok) hlt hc he
          rw [h2]
          refine ihF fun k => ?_
          obtain ⟨e', he', hk⟩ := iter_succ.1 (hall (k + 1))
          rw [he] at he'
          cases he'
          rw [h1]
          exact hk
      · generalize d.rows.length + 1 = k at hit hF ih
        have key : ∀ k' {s : LuState} {tok F : Nat}, ¬ (iter (eolNext f d c) k' s.ptr).isSome = true →
            (m + 1) * k + 1 + k' ≤ F → s.scan f bytes d inp eoi F curr tok = .error .fuel →
            ∀ F', s.scan f bytes d inp eoi F' curr tok = .error .fuel := by
          intro k'
          induction k' with
          | zero => intro s tok F h; exact absurd rfl h
          | succ k' ihk =>
            intro s tok F h hF hs F'
            obtain ⟨F, rfl⟩ : ∃ n, F = n + 1 := ⟨F - 1, by omega⟩
            cases he : eolNext f d c s.ptr with
            | some e =>
              obtain ⟨s', tok', h1, h2⟩ := scan_eolNext (bytes := bytes) (tok := tok) hlt hc he
              rw [h2] at hs
              cases F' with
              | zero => rfl
              | succ F' =>
                rw [h2]
                refine ihk ?_ (by omega) hs F'
                intro hk
                exact h (iter_succ.2 ⟨e, he, by rw [← h1]; exact hk⟩)
            | none =>
              rcases scan_noEolNext (bytes := bytes) (tok := tok) hlt hc he with ⟨o, h1, h2⟩ | ⟨s', tok', h2⟩
              · rw [h2] at hs; exact absurd hs h1
              · rw [h2] at hs
                cases F' with
                | zero => rfl
                | succ F' =>
                  rw [h2]
                  exact ih (by omega) (by omega) hs F'
        refine key k hit ?_ h F'
        have : (m + 1 + 1) * k = (m + 1) * k + k := by rw [Nat.add_mul, Nat.one_mul]
        omega

/-- More fuel does not change the outcome. -/
theorem scan_mono (F : Nat) : ∀ {s : LuState} {curr tok F' : Nat}, F ≤ F' →
    s.scan f bytes d inp eoi F curr tok ≠ .error .fuel →
    s.scan f bytes d inp eoi F' curr tok = s.scan f bytes d inp eoi F curr tok := by
  induction F with
  | zero => intro s curr tok F' _ h; exact absurd rfl h
  | succ F ih =>
    intro s curr tok F' hF h
    obtain ⟨F', rfl⟩ : ∃ n, F' = n + 1 := ⟨F' - 1, by omega⟩
    by_cases hlt : curr = eoi
    · rw [LuState.scan, if_pos hlt, LuState.scan, if_pos hlt]
    cases hc : charAt inp eoi curr with
    | error x =>
      rw [LuState.scan, if_neg hlt, LuState.scan, if_neg hlt, hc]
      rfl
    | ok c =>
      cases he : eolNext f d c s.ptr with
      | some e =>
        obtain ⟨s', tok', h1, h2⟩ := scan_eolNext (bytes := bytes) (tok := tok) hlt hc he
        rw [h2] at h ⊢
        rw [h2]
        exact ih (by omega) h
      | none =>
        rcases scan_noEolNext (bytes := bytes) (tok := tok) hlt hc he with ⟨o, h1, h2⟩ | ⟨s', tok', h2⟩
        · rw [h2, h2]
        · rw [h2] at h ⊢
          rw [h2]
          exact ih (by omega) h

/-- The outcome with the bound `scanFuel` is the outcome with any sufficient bound. -/
theorem scan_exact {s : LuState} {curr tok F : Nat} (h : s.scan f bytes d inp eoi F curr tok ≠ .error .fuel) :
    s.scan f bytes d inp eoi (scanFuel d eoi curr) curr tok = s.scan f bytes d inp eoi F curr tok := by
  have h' : s.scan f bytes d inp eoi (scanFuel d eoi curr) curr tok ≠ .error .fuel := by
    intro h'
    exact h (scan_forever (eoi - curr) (Nat.le_refl _) (Nat.le_refl _) h' F)
  rcases Nat.le_total F (scanFuel d eoi curr) with hle | hle
  · exact scan_mono F hle h
  · exact (scan_mono _ hle h').symm

end Lexertl
