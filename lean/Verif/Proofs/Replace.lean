import Verif.Spec.Replace
import Verif.Props.Calls
import Verif.Props.Tables

/- Proofs about `replace`. -/
namespace Lexertl.Repl
open Lexertl Spec

theorem slice_ok {inp : List Nat} {a b : Nat} {t : List Nat} (h : slice inp a b = .ok t) :
    t = (inp.drop a).take (b - a) ∧ a ≤ b ∧ b ≤ inp.length := by
  unfold slice at h
  split at h
  · rename_i hc; cases h; exact ⟨rfl, hc⟩
  · cases h

theorem slice_of {inp : List Nat} {a b : Nat} (h1 : a ≤ b) (h2 : b ≤ inp.length) : slice inp a b = .ok ((inp.drop a).take (b - a)) := by
  unfold slice
  rw [if_pos ⟨h1, h2⟩]

theorem out_ok {fmt : Fmt} {inp : List Nat} {r : Results} {t : List Nat} (h : fmt.out inp r = .ok t) :
    t = Spec.Fmt.subst fmt inp r ∧ r.first ≤ r.second ∧ r.second ≤ inp.length := by
  unfold Fmt.out at h
  obtain ⟨t', h1, h2⟩ := bind_ok h
  obtain ⟨e, h3⟩ := slice_ok h1
  refine ⟨?_, h3⟩
  unfold Spec.Fmt.subst
  subst e
  cases fmt with
  | text s => simp only at h2 ⊢; exact (Except.ok.inj h2).symm
  | map f =>
    simp only at h2 ⊢
    cases hf : f r.id with
    | none => rw [hf] at h2; exact (Except.ok.inj h2).symm
    | some g => rw [hf] at h2; exact (Except.ok.inj h2).symm

theorem out_of {fmt : Fmt} {inp : List Nat} {r : Results} (h1 : r.first ≤ r.second) (h2 : r.second ≤ inp.length) :
    fmt.out inp r = .ok (Spec.Fmt.subst fmt inp r) := by
  unfold Fmt.out Spec.Fmt.subst
  rw [slice_of h1 h2]
  cases fmt with
  | text s => rfl
  | map f =>
    simp only [bind, Except.bind]
    cases f r.id <;> rfl

theorem call_of {npos bytes : Nat} {sm : Internals} {inp : List Nat} {k : Nat} {r r' : Results}
    (h : lookupFuel replaceFlags npos bytes sm inp k r = .ok r') : (replaceLexer npos bytes sm inp).Call r (.ok r') :=
  ⟨by simp, k, h⟩

/-- Without rules that continue the token nothing is pending at the end of input. -/
theorem no_cont {npos bytes : Nat} {sm : Internals} {inp : List Nat} (hC : NoContinue sm) {p q : Nat} {e : Nat}
    (h : (replaceLexer npos bytes sm inp).Run e (replaceLexer npos bytes sm inp).IsCont p q) : p = q := by
  cases h with
  | nil => rfl
  | snoc q k r s h1 h2 h3 h4 h5 =>
    exfalso
    obtain ⟨rows, g1, row, g2, g3, g4⟩ := Props.takes_row (by omega) h4
    rcases h5 with h5 | h5
    · exact hC rows g1 row g2 g3 (by rw [g4, h5]; rfl)
    · exact absurd h5.1 (by simp [replaceLexer, replaceFlags])

theorem loop_sound {npos bytes : Nat} {sm : Internals} {inp : List Nat} {fmt : Fmt} {k : Nat} (hC : NoContinue sm)
    (he0 : sm.eoi = 0) (hnp : npos ≠ 0) : ∀ (n : Nat) (r0 r : Results) (buf out : List Nat),
    r0.second ≤ r0.eoi → r0.eoi = inp.length → (replaceLexer npos bytes sm inp).Call r0 (.ok r) →
    replaceLoop .inserts npos bytes sm inp fmt k n r r0.second buf = .ok out →
    ∃ ts z rest, (replaceLexer npos bytes sm inp).Calls r0 (ts ++ [z]) ∧ (∀ t ∈ ts, t.id ≠ sm.eoi) ∧ z.id = sm.eoi ∧
      out = buf ++ rest ∧ Replaced fmt inp r0.second ts rest
  | 0, _, _, _, _, _, _, _, h => by cases h
  | n + 1, r0, r, buf, out, hr, hre, hc, h => by
    have Y := call_yields hr hc
    unfold replaceLoop at h
    split at h
    · rename_i hid
      obtain ⟨t1, h1, h⟩ := bind_ok h
      obtain ⟨t2, h2, h⟩ := bind_ok h
      obtain ⟨r', h3, h⟩ := bind_ok h
      obtain ⟨e1, g1, g2⟩ := slice_ok h1
      obtain ⟨e2, g3, g4⟩ := out_ok h2
      have hY : r.second ≤ r.eoi := by rw [Y.eoi]; exact Y.hi
      obtain ⟨ts, z, rest, i1, i2, i3, i4, i5⟩ := loop_sound hC he0 hnp n r r' _ out hY (by rw [Y.eoi]; exact hre) (call_of h3) h
      refine ⟨r :: ts, z, t1 ++ (t2 ++ rest), .cons _ _ _ hc i1, ?_, i3, ?_, ?_⟩
      · intro t ht
        rcases List.mem_cons.1 ht with rfl | ht
        · rw [he0]; exact hid
        · exact i2 t ht
      · rw [i4]; simp [Out.copy]
      · rw [e1, e2]
        exact .token _ _ _ _ g1 g3 g4 i5
    · rename_i hid
      obtain ⟨t1, h1, h⟩ := bind_ok h
      obtain ⟨e1, g1, g2⟩ := slice_ok h1
      have hid : r.id = 0 := by simpa using hid
      have hend : r.first = inp.length := by
        rcases Y.tok with ⟨_, _, h4, h5⟩ | ⟨h4, _⟩ | ⟨_, _, s, _, _, _, _, _, h4, _, _, h5⟩
        · have := no_cont hC h5
          rw [this, h4, hre]
        · exact absurd (h4.symm.trans hid) hnp
        · exact absurd (by rw [← h4, hid, ← he0]; rfl) h5
      refine ⟨[], r, t1, .cons _ _ _ hc (.nil _), by simp, by rw [he0]; exact hid, ?_, ?_⟩
      · exact (Except.ok.inj h).symm
      · rw [e1, hend, List.take_of_length_le (by simp)]
        exact .done _

theorem sound {npos bytes : Nat} {sm : Internals} {inp : List Nat} {fmt : Fmt} (hC : NoContinue sm)
    (he0 : sm.eoi = 0) (hnp : npos ≠ 0) {out : List Nat} (h : Replaces npos bytes sm inp fmt out) :
    ∃ ts z, (replaceLexer npos bytes sm inp).Calls (.mk' npos 0 inp.length) (ts ++ [z]) ∧ (∀ t ∈ ts, t.id ≠ sm.eoi) ∧ z.id = sm.eoi ∧
      Replaced fmt inp 0 ts out := by
  obtain ⟨k, n, h⟩ := h
  unfold replaceFuel at h
  obtain ⟨r, h1, h⟩ := bind_ok h
  obtain ⟨ts, z, rest, i1, i2, i3, i4, i5⟩ := loop_sound (k := k) hC he0 hnp n (.mk' npos 0 inp.length) r [] out (by simp [Results.mk'])
    rfl (call_of h1) h
  rw [List.nil_append] at i4
  subst i4
  exact ⟨ts, z, i1, i2, i3, i5⟩

/-- Replacing nothing gives the input. -/
theorem replaced_id {fmt : Fmt} {inp : List Nat} {ts : List Results} (hf : ∀ t ∈ ts, Spec.Fmt.subst fmt inp t = tokenText inp t) {p : Nat}
    {out : List Nat} (h : Replaced fmt inp p ts out) : out = inp.drop p := by
  induction h with
  | done p => rfl
  | token p t ts out h1 h2 h3 h4 ih =>
    rw [ih fun x hx => hf x (by simp [hx]), hf t (by simp)]
    unfold tokenText
    have e1 : inp.drop t.second = (inp.drop t.first).drop (t.second - t.first) := by
      rw [List.drop_drop]; congr 1; omega
    have e2 : inp.drop t.first = (inp.drop p).drop (t.first - p) := by
      rw [List.drop_drop]; congr 1; omega
    rw [e1, List.take_append_drop, e2, List.take_append_drop]

/-! ### `lookup` without the recursive flag throws nothing -/

structure NoThrow {α : Type} (x : M α) : Prop where
  out : ∀ m, x ≠ .error (.throw m)

theorem NoThrow.bind {α β : Type} {x : M α} {g : α → M β} (h : NoThrow x) (hg : ∀ a, NoThrow (g a)) : NoThrow (x >>= g) := by
  refine ⟨fun m => ?_⟩
  cases x with
  | ok a => exact (hg a).out m
  | error e =>
    intro h'
    refine h.out m ?_
    simp only [Bind.bind, Except.bind, Except.error.injEq] at h'
    rw [h']

theorem nt_ok {α : Type} (a : α) : NoThrow (.ok a : M α) := ⟨by intro m; simp⟩
theorem nt_ub {α : Type} (s : String) : NoThrow (.error (.ub s) : M α) := ⟨by intro m; simp⟩
theorem nt_fuel {α : Type} : NoThrow (.error .fuel : M α) := ⟨by intro m; simp⟩

theorem nt_getCell (rows : List Row) (i c : Nat) : NoThrow (getCell rows i c) := by
  unfold getCell
  repeat' split
  all_goals first | exact nt_ok _ | exact nt_ub _

theorem nt_charAt (inp : List Nat) (e p : Nat) : NoThrow (charAt inp e p) := by
  unfold charAt
  repeat' split
  all_goals first | exact nt_ok _ | exact nt_ub _

theorem nt_endStep (f : Flags) (d : Dfa) (s : LuState) (t c : Nat) : NoThrow (s.endStep f d t c) := by
  unfold LuState.endStep
  refine (nt_getCell ..).bind fun e => ?_
  split
  · exact (nt_getCell ..).bind fun _ => (nt_getCell ..).bind fun _ => (nt_getCell ..).bind fun _ => (nt_getCell ..).bind fun _ => nt_ok _
  · exact nt_ok _

theorem nt_isEol (f : Flags) (d : Dfa) (s : LuState) (c : Option Nat) : NoThrow (s.isEol f d c) := by
  unfold LuState.isEol
  split
  · refine (nt_getCell ..).bind fun e => ?_
    dsimp only
    split <;> exact nt_ok _
  · exact nt_ok _

theorem nt_step (d : Dfa) (p c : Nat) : NoThrow (LuState.step d p c) := by
  unfold LuState.step
  split
  · exact nt_getCell ..
  · exact nt_ub _

theorem nt_stepBytes (d : Dfa) : ∀ (bs : List Nat) (p st : Nat), NoThrow (LuState.stepBytes d p bs st)
  | [], _, _ => nt_ok _
  | b :: bs, p, st => by
    unfold LuState.stepBytes
    refine (nt_step ..).bind fun s => ?_
    split
    · exact nt_ok _
    · exact nt_stepBytes d bs s s

theorem nt_nextChar (bytes : Nat) (d : Dfa) (s : LuState) (c : Nat) : NoThrow (s.nextChar bytes d c) := by
  unfold LuState.nextChar
  split
  · refine (nt_step ..).bind fun s => ?_
    split <;> exact nt_ok _
  · exact (nt_stepBytes ..).bind fun _ => nt_ok _

theorem nt_scan (f : Flags) (bytes : Nat) (d : Dfa) (inp : List Nat) (eoi : Nat) : ∀ (n : Nat) (s : LuState) (c t : Nat),
    NoThrow (s.scan f bytes d inp eoi n c t)
  | 0, _, _, _ => nt_fuel
  | n + 1, s, c, t => by
    unfold LuState.scan
    split
    · exact nt_ok _
    refine (nt_charAt ..).bind fun ch => (nt_isEol ..).bind fun x => ?_
    obtain ⟨s1, b⟩ := x
    dsimp only
    split
    · exact (nt_endStep ..).bind fun y => nt_scan f bytes d inp eoi n _ _ _
    · refine (nt_nextChar ..).bind fun y => ?_
      obtain ⟨s2, st⟩ := y
      dsimp only
      split
      · exact (nt_isEol ..).bind fun _ => nt_ok _
      · exact (nt_endStep ..).bind fun y => nt_scan f bytes d inp eoi n _ _ _

theorem nt_attempt (f : Flags) (npos bytes : Nat) (sm : Internals) (inp : List Nat) (r : Results) (c t : Nat) :
    NoThrow (attempt f npos bytes sm inp r c t) := by
  unfold attempt
  refine NoThrow.bind ?_ fun d => NoThrow.bind ?_ fun s => NoThrow.bind ?_ fun s => NoThrow.bind (nt_scan ..) fun x => ?_
  · unfold Internals.dfaAt
    split <;> first | exact nt_ok _ | exact nt_ub _
  · unfold LuState.init
    exact (nt_getCell ..).bind fun _ => (nt_getCell ..).bind fun _ => (nt_getCell ..).bind fun _ => (nt_getCell ..).bind fun _ => nt_ok _
  · unfold LuState.bolStartState
    split
    · refine (nt_getCell ..).bind fun e => ?_
      split <;> exact nt_ok _
    · exact nt_ok _
  · obtain ⟨s, c, t⟩ := x
    dsimp only
    unfold LuState.checkEol
    split
    · refine (nt_getCell ..).bind fun e => ?_
      dsimp only
      split
      · exact nt_endStep ..
      · exact nt_ok _
    · exact nt_ok _

theorem nt_nextLoop {f : Flags} (hf : f.recursive = false) (npos bytes : Nat) (sm : Internals) (inp : List Nat) : ∀ (n : Nat) (r : Results) (c t : Nat),
    NoThrow (nextLoop f npos bytes sm inp n r c t)
  | 0, _, _, _ => nt_fuel
  | n + 1, r, c, t => by
    unfold nextLoop
    split
    · exact nt_ok _
    refine (nt_attempt ..).bind fun x => ?_
    obtain ⟨s, t⟩ := x
    dsimp only
    split
    · refine NoThrow.bind ?_ fun y => ?_
      · unfold LuState.popStep
        rw [if_neg (by simp [hf])]
        exact nt_ok _
      · obtain ⟨s, st⟩ := y
        dsimp only
        split
        · exact nt_nextLoop hf npos bytes sm inp n _ _ _
        · split
          · exact nt_nextLoop hf npos bytes sm inp n _ _ _
          · exact nt_ok _
    · exact (nt_charAt ..).bind fun _ => nt_ok _

/-! ### `replace` returns -/

theorem lookup_returns {npos bytes : Nat} {sm : Internals} {inp : List Nat} (hM : Machine npos sm) (hP : NoPops sm)
    (hin : bytes = 1 → ∀ c ∈ inp, c < 256) (hE : (replaceLexer npos bytes sm inp).EolEnds) (hN : (replaceLexer npos bytes sm inp).NoEmptyText)
    {r : Results} (hr : Ready sm inp r) {k : Nat} (hk : inp.length < k) :
    ∃ r', lookupFuel replaceFlags npos bytes sm inp k r = .ok r' ∧ Ready sm inp r' := by
  have h1 := nextLoop_fuel hE hN k { r with first := r.second } r.second hr.pos (by
    have := hr.eoi; show r.eoi - r.second < k; omega)
  have h2 := nt_nextLoop (f := replaceFlags) rfl npos bytes sm inp k { r with first := r.second } r.second r.second
  have h3 := lookup_safe (f := replaceFlags) hM (.inr hP) hin k hr
  change lookupFuel replaceFlags npos bytes sm inp k r ≠ _ at h1
  change NoThrow (lookupFuel replaceFlags npos bytes sm inp k r) at h2
  cases hl : lookupFuel replaceFlags npos bytes sm inp k r with
  | ok r' => rw [hl] at h3; exact ⟨r', rfl, h3⟩
  | error e =>
    rw [hl] at h1 h2 h3
    cases e with
    | throw m => exact absurd rfl (h2.out m)
    | ub w => exact absurd h3 id
    | fuel => exact absurd rfl h1

theorem loop_returns {npos bytes : Nat} {sm : Internals} {inp : List Nat} (hM : Machine npos sm) (hP : NoPops sm)
    (hin : bytes = 1 → ∀ c ∈ inp, c < 256) (hE : (replaceLexer npos bytes sm inp).EolEnds) (hN : (replaceLexer npos bytes sm inp).NoEmptyText)
    (he0 : sm.eoi = 0) (fmt : Fmt) (out : Out) {k : Nat} (hk : inp.length < k) :
    ∀ (n : Nat) (r0 r : Results) (buf : List Nat), r0.second ≤ r0.eoi → r0.eoi = inp.length →
      (replaceLexer npos bytes sm inp).Call r0 (.ok r) → Ready sm inp r → inp.length - r0.second < n →
      ∃ o, replaceLoop out npos bytes sm inp fmt k n r r0.second buf = .ok o
  | 0, _, _, _, _, _, _, _, h => by omega
  | n + 1, r0, r, buf, h1, h2, hc, hr, hn => by
    have Y := call_yields h1 hc
    have y1 : r0.second ≤ r.first := Y.lo
    have y2 := Y.mid
    have y3 : r.second ≤ r0.eoi := Y.hi
    have y4 : r.eoi = r0.eoi := Y.eoi
    have hpos : r0.second < r0.eoi → r0.second < r.second := fun hlt => Props.C16_lookup_progresses _ hN rfl hlt hc
    unfold replaceLoop
    split
    · rename_i hid
      have hlt : r0.second < r0.eoi := by
        by_cases hlt : r0.second < r0.eoi
        · exact hlt
        · have := (Props.C16_reports_end _ (r := r0) (by omega) _).1 hc
          cases this
          exact absurd he0 hid
      have := hpos hlt
      rw [slice_of y1 (by omega), out_of y2 (by omega)]
      obtain ⟨r', g1, g2⟩ := lookup_returns hM hP hin hE hN hr hk
      simp only [bind, Except.bind]
      rw [g1]
      exact loop_returns hM hP hin hE hN he0 fmt out hk n r r' _ (by omega) (by omega) (call_of g1) g2 (by omega)
    · rw [slice_of y1 (by omega)]
      exact ⟨_, rfl⟩

theorem returns {npos bytes : Nat} {sm : Internals} {inp : List Nat} (hM : Machine npos sm) (hP : NoPops sm) (hs : sm.dfa ≠ [])
    (hin : bytes = 1 → ∀ c ∈ inp, c < 256) (hE : (replaceLexer npos bytes sm inp).EolEnds) (hN : (replaceLexer npos bytes sm inp).NoEmptyText)
    (he0 : sm.eoi = 0) (fmt : Fmt) : ∃ out, Replaces npos bytes sm inp fmt out := by
  have hr : Ready sm inp (.mk' npos 0 inp.length) := ⟨by simp [Results.mk'], by simp [Results.mk'], List.length_pos_iff.2 hs, by simp [Results.mk']⟩
  obtain ⟨r, h1, h2⟩ := lookup_returns hM hP hin hE hN hr (k := inp.length + 1) (by omega)
  obtain ⟨o, h3⟩ := loop_returns hM hP hin hE hN he0 fmt .inserts (k := inp.length + 1) (by omega) (inp.length + 1) _ r [] hr.pos rfl
    (call_of h1) h2 (by simp [Results.mk'])
  refine ⟨o, inp.length + 1, inp.length + 1, ?_⟩
  unfold replaceFuel
  rw [h1]
  exact h3

/-! ### Another id for the end of input -/

theorem never_zero {npos bytes : Nat} {sm : Internals} {inp : List Nat} (he : sm.eoi ≠ 0) (hnp : npos ≠ 0)
    (hz : ∀ rows ∈ sm.dfa, ∀ row ∈ rows, row[ixEnd]? ≠ some 0 → row[ixId]? ≠ some 0) {r0 r : Results} (hr : r0.second ≤ r0.eoi)
    (hc : (replaceLexer npos bytes sm inp).Call r0 (.ok r)) : r.id ≠ 0 := by
  have Y := call_yields hr hc
  rcases Y.tok with ⟨h, _⟩ | ⟨h, _⟩ | ⟨q, r1, s, _, _, h1, h2, h3, h, _⟩
  · rw [h]; exact he
  · rw [h]; exact hnp
  · obtain ⟨rows, g1, row, g2, g3, g4⟩ := Props.takes_row (by omega) h3
    intro e
    exact hz rows g1 row g2 g3 (by rw [g4, ← h, e])

theorem loop_never {npos bytes : Nat} {sm : Internals} {inp : List Nat} {fmt : Fmt} {k : Nat} (he : sm.eoi ≠ 0) (hnp : npos ≠ 0)
    (hz : ∀ rows ∈ sm.dfa, ∀ row ∈ rows, row[ixEnd]? ≠ some 0 → row[ixId]? ≠ some 0) (o : Out) : ∀ (n : Nat) (r0 r : Results) (buf out : List Nat),
    r0.second ≤ r0.eoi → (replaceLexer npos bytes sm inp).Call r0 (.ok r) → replaceLoop o npos bytes sm inp fmt k n r r0.second buf ≠ .ok out
  | 0, _, _, _, _, _, _ => by unfold replaceLoop; simp
  | n + 1, r0, r, buf, out, hr, hc => by
    have Y := call_yields hr hc
    unfold replaceLoop
    rw [if_pos (never_zero he hnp hz hr hc)]
    intro h
    obtain ⟨t1, h1, h⟩ := bind_ok h
    obtain ⟨t2, h2, h⟩ := bind_ok h
    obtain ⟨r', h3, h⟩ := bind_ok h
    exact loop_never he hnp hz o n r r' _ out (by rw [Y.eoi]; exact Y.hi) (call_of h3) h

end Lexertl.Repl
