import Verif.Proofs.Utf

/- Proofs about the UTF iterators: encoders, safety, moving back, byte order. -/
namespace Lexertl.Utf
open Lexertl Spec

/-! ### The encoders as iterators -/

variable {σ : Type}

/-- The iterator gives the code points `cs` and is then at the end. -/
def Yields (I : CharIter σ) : σ → List Nat → Prop
  | p, [] => I.atEnd p = true
  | p, c :: cs => I.atEnd p = false ∧ I.val p = .ok c ∧ (I.inc p).2 = .ok () ∧ Yields I (I.inc p).1 cs

theorem out_next_nil {I : CharIter σ} {enc : Nat → List Nat} {s : UtfOut σ} (h : Yields I s.it []) : UtfOut.next I enc s = .ok s := by
  unfold UtfOut.next
  rw [if_pos (show I.atEnd s.it = true from h)]

theorem out_next_cons {I : CharIter σ} {enc : Nat → List Nat} {s : UtfOut σ} {c : Nat} {cs : List Nat} (h : Yields I s.it (c :: cs)) :
    UtfOut.next I enc s = .ok { s with units := enc c, count := (enc c).length, index := 0 } := by
  unfold UtfOut.next
  rw [if_neg (by rw [h.1]; simp), h.2.1]
  rfl

/-- The loop from the middle of a code point on. -/
theorem out_collect {I : CharIter σ} {enc : Nat → List Nat} (hne : ∀ c, enc c ≠ []) :
    ∀ (n : Nat) (s : UtfOut σ) (c : Nat) (cs : List Nat), Yields I s.it (c :: cs) → s.units = enc c → s.count = (enc c).length →
      s.index < (enc c).length → ((enc c).drop s.index ++ cs.flatMap enc).length < n →
      UtfOut.collect I enc n s = .ok ((enc c).drop s.index ++ cs.flatMap enc)
  | 0, _, _, _, _, _, _, _, h => by omega
  | n + 1, s, c, cs, hy, hu, hc, hi, hn => by
    unfold UtfOut.collect
    rw [if_neg (by rw [hy.1]; simp)]
    unfold UtfOut.val
    rw [hu, List.getElem?_eq_getElem hi, List.drop_eq_getElem_cons hi]
    rw [List.drop_eq_getElem_cons hi] at hn
    simp only [List.cons_append, List.length_cons] at hn
    by_cases hlast : s.index + 1 ≥ (enc c).length
    · have hd : (enc c).drop (s.index + 1) = [] := List.drop_eq_nil_of_le hlast
      rw [hd, List.nil_append] at hn
      unfold UtfOut.inc
      rw [if_pos (by omega), hy.2.2.1]
      obtain ⟨_, _, _, hy'⟩ := hy
      cases cs with
      | nil =>
        cases n with
        | zero => simp at hn
        | succ n =>
          simp only [bind, Except.bind]
          rw [out_next_nil (s := { s with it := (I.inc s.it).1, index := s.index + 1 }) hy']
          simp only
          unfold UtfOut.collect
          rw [if_pos (show I.atEnd (I.inc s.it).1 = true from hy'), hd]
          rfl
      | cons d cs =>
        simp only [bind, Except.bind]
        rw [out_next_cons (s := { s with it := (I.inc s.it).1, index := s.index + 1 }) hy']
        simp only
        rw [out_collect hne n _ d cs hy' rfl rfl (List.length_pos_iff.2 (hne d)) (by simpa using hn), hd]
        simp
    · unfold UtfOut.inc
      rw [if_neg (by omega)]
      simp only [bind, Except.bind]
      rw [out_collect hne n { s with index := s.index + 1 } c cs hy hu hc (by simp only; omega) (by simpa using hn)]
      rfl

theorem out_all {I : CharIter σ} {enc : Nat → List Nat} (hne : ∀ c, enc c ≠ []) {p : σ} {cs : List Nat} (h : Yields I p cs) {n : Nat}
    (hn : (cs.flatMap enc).length < n) : UtfOut.all I enc n p = .ok (cs.flatMap enc) := by
  unfold UtfOut.all UtfOut.new
  cases cs with
  | nil =>
    rw [out_next_nil h]
    cases n with
    | zero => omega
    | succ n =>
      simp only [bind, Except.bind]
      unfold UtfOut.collect
      rw [if_pos (show I.atEnd p = true from h)]
      rfl
  | cons c cs =>
    rw [out_next_cons h]
    simp only [bind, Except.bind]
    rw [out_collect hne n _ c cs h rfl rfl (List.length_pos_iff.2 (hne c)) (by simpa using hn)]
    simp

theorem pointers_yield : ∀ (cs pre : List Nat), Yields (pointers (pre ++ cs)) pre.length cs
  | [], pre => by simp [Yields, pointers]
  | c :: cs, pre => by
    refine ⟨by simp [pointers], by simp [pointers], by simp [pointers], ?_⟩
    have := pointers_yield cs (pre ++ [c])
    simpa [pointers, List.append_assoc] using this

theorem Decodes.yields {next : List Nat → UtfIn → UtfIn × M Unit} {enc : Nat → List Nat} {P : Nat → Prop} (D : Decodes next enc P) :
    ∀ (cs pre : List Nat) (c : Nat), P c → (∀ d ∈ cs, P d) →
      Yields (decoder (pre ++ (enc c ++ cs.flatMap enc)) (next (pre ++ (enc c ++ cs.flatMap enc)))) ⟨pre.length, pre.length + (enc c).length, c⟩ (c :: cs)
  | [], pre, c, hc, _ => by
    have hp := List.length_pos_iff.2 (D.ne c hc)
    have hstop := D.stop (pre ++ (enc c ++ [].flatMap enc)) ⟨pre.length + (enc c).length, pre.length + (enc c).length, c⟩ (by simp)
    refine ⟨?_, rfl, ?_, ?_⟩
    · simp only [decoder, beq_eq_false_iff_ne, ne_eq, List.length_append]; omega
    · show (next _ _).2 = _
      rw [hstop]
    · show (decoder _ _).atEnd (next _ _).1 = true
      rw [hstop]
      simp [decoder]
  | d :: cs, pre, c, hc, hcs => by
    have hp := List.length_pos_iff.2 (D.ne c hc)
    have hstep := D.step (pre ++ enc c) d (cs.flatMap enc) ⟨pre.length + (enc c).length, pre.length + (enc c).length, c⟩ (hcs d (by simp)) (by simp)
    have ih := Decodes.yields D cs (pre ++ enc c) d (hcs d (by simp)) (fun x hx => hcs x (by simp [hx]))
    rw [List.append_assoc] at hstep ih
    refine ⟨?_, rfl, ?_, ?_⟩
    · simp only [decoder, beq_eq_false_iff_ne, ne_eq, List.length_append]; omega
    · show (next _ _).2 = _
      rw [List.flatMap_cons, hstep]
    · show Yields _ (next _ _).1 _
      rw [List.flatMap_cons, hstep]
      exact ih

/-- A decoder over encoded code points yields them. -/
theorem Decodes.start {next : List Nat → UtfIn → UtfIn × M Unit} {enc : Nat → List Nat} {P : Nat → Prop} (D : Decodes next enc P)
    (cs : List Nat) (h : ∀ c ∈ cs, P c) : (UtfIn.new (next (cs.flatMap enc)) 0).2 = .ok () ∧
      Yields (decoder (cs.flatMap enc) (next (cs.flatMap enc))) (UtfIn.new (next (cs.flatMap enc)) 0).1 cs := by
  unfold UtfIn.new
  cases cs with
  | nil =>
    rw [D.stop _ _ rfl]
    exact ⟨rfl, rfl⟩
  | cons c cs =>
    have hstep := D.step [] c (cs.flatMap enc) ⟨0, 0, 0⟩ (h c (by simp)) rfl
    have hy := D.yields cs [] c (h c (by simp)) (fun d hd => h d (by simp [hd]))
    simp only [List.nil_append, List.length_nil, Nat.zero_add] at hstep hy
    rw [List.flatMap_cons, hstep]
    exact ⟨rfl, hy⟩

/-! ### Safety of the decoders -/

/-- What one call of `next` does: it stays inside the input, and it moves on unless it
throws. -/
structure StepOk (inp : List Nat) (s : UtfIn) (x : UtfIn × M Unit) : Prop where
  it : x.1.it = s.it
  lo : s.it ≤ x.1.end
  hi : x.1.end ≤ inp.length
  safe : ∀ what, x.2 ≠ .error (.ub what)
  fuel : x.2 ≠ .error .fuel
  moves : x.2 = .ok () → s.it < inp.length → s.it < x.1.end

theorem utf8Cont_cases (inp : List Nat) (e : Nat) (he : e ≤ inp.length) :
    (∃ m, utf8Cont inp e = .error (.throw m)) ∨ (∃ b, utf8Cont inp e = .ok b ∧ e < inp.length) := by
  unfold utf8Cont
  split
  · exact .inl ⟨_, rfl⟩
  · have : e < inp.length := by omega
    rw [List.getElem?_eq_getElem this]
    dsimp only
    split
    · exact .inl ⟨_, rfl⟩
    · exact .inr ⟨_, rfl, this⟩

theorem utf8_step {inp : List Nat} {s : UtfIn} (he : s.it = s.end) (hl : s.end ≤ inp.length) : StepOk inp s (utf8Next inp s) := by
  unfold utf8Next
  split
  · rename_i h
    exact ⟨rfl, by simp only; omega, hl, by simp, by simp, by intro _ h2; omega⟩
  · rename_i h
    have hlt : s.it < inp.length := by omega
    rw [List.getElem?_eq_getElem hlt]
    dsimp only
    have key : ∀ (x : Nat × M Nat), (∃ m, x.2 = .error (.throw m) ∧ s.it ≤ x.1 ∧ x.1 ≤ inp.length) ∨
        (∃ c, x.2 = .ok c ∧ s.it < x.1 ∧ x.1 ≤ inp.length) →
        StepOk inp s (match x with
          | (e, r) => match r with
            | .ok ch => (({ s with «end» := e, char := ch } : UtfIn), (.ok () : M Unit))
            | .error f => ({ s with «end» := e }, .error f)) := by
      rintro ⟨e, r⟩ h
      rcases h with ⟨m, h1, h2, h3⟩ | ⟨c, h1, h2, h3⟩
      · simp only at h1 h2 h3; subst h1
        exact ⟨rfl, h2, h3, by simp, by simp, by simp⟩
      · simp only at h1 h2 h3; subst h1
        exact ⟨rfl, by simp only; omega, h3, by simp, by simp, fun _ _ => h2⟩
    apply key
    split
    · exact .inr ⟨_, rfl, by simp only; omega, by simp only; omega⟩
    · unfold utf8Next2
      rcases utf8Cont_cases inp (s.it + 1) (by omega) with ⟨m, e⟩ | ⟨b, e, hb⟩ <;> rw [e]
      · exact .inl ⟨m, rfl, by simp only; omega, by simp only; omega⟩
      · exact .inr ⟨_, rfl, by simp only; omega, by simp only; omega⟩
    · unfold utf8Next3
      rcases utf8Cont_cases inp (s.it + 1) (by omega) with ⟨m, e⟩ | ⟨b, e, hb⟩ <;> rw [e]
      · exact .inl ⟨m, rfl, by simp only; omega, by simp only; omega⟩
      dsimp only
      rcases utf8Cont_cases inp (s.it + 2) (by omega) with ⟨m, e⟩ | ⟨b, e, hb⟩ <;> rw [e]
      · exact .inl ⟨m, rfl, by simp only; omega, by simp only; omega⟩
      · exact .inr ⟨_, rfl, by simp only; omega, by simp only; omega⟩
    · unfold utf8Next4
      rcases utf8Cont_cases inp (s.it + 1) (by omega) with ⟨m, e⟩ | ⟨b, e, hb⟩ <;> rw [e]
      · exact .inl ⟨m, rfl, by simp only; omega, by simp only; omega⟩
      dsimp only
      rcases utf8Cont_cases inp (s.it + 2) (by omega) with ⟨m, e⟩ | ⟨b, e, hb⟩ <;> rw [e]
      · exact .inl ⟨m, rfl, by simp only; omega, by simp only; omega⟩
      dsimp only
      rcases utf8Cont_cases inp (s.it + 3) (by omega) with ⟨m, e⟩ | ⟨b, e, hb⟩ <;> rw [e]
      · exact .inl ⟨m, rfl, by simp only; omega, by simp only; omega⟩
      · exact .inr ⟨_, rfl, by simp only; omega, by simp only; omega⟩
    · exact .inl ⟨_, rfl, by simp only; omega, hl⟩

theorem utf16_step {inp : List Nat} {s : UtfIn} (he : s.it = s.end) (hl : s.end ≤ inp.length) : StepOk inp s (utf16Next inp s) := by
  unfold utf16Next
  split
  · exact ⟨rfl, by simp only; omega, hl, by simp, by simp, by intro _ h2; omega⟩
  have hlt : s.it < inp.length := by omega
  rw [List.getElem?_eq_getElem hlt]
  dsimp only
  split
  · exact ⟨rfl, by simp only; omega, by simp only; omega, by simp, by simp, by simp only; omega⟩
  split
  · exact ⟨rfl, by simp only; omega, hl, by simp, by simp, by simp⟩
  split
  · exact ⟨rfl, by simp only; omega, by simp only; omega, by simp, by simp, by simp⟩
  have hlt : s.it + 1 < inp.length := by omega
  rw [List.getElem?_eq_getElem hlt]
  dsimp only
  split
  · exact ⟨rfl, by simp only; omega, by simp only; omega, by simp, by simp, by simp⟩
  · exact ⟨rfl, by simp only; omega, by simp only; omega, by simp, by simp, by simp only; omega⟩

theorem reached_inv {inp : List Nat} {next : UtfIn → UtfIn × M Unit}
    (hstep : ∀ s : UtfIn, s.it = s.end → s.end ≤ inp.length → StepOk inp s (next s)) {s : UtfIn} (h : Reached next s) :
    s.it ≤ s.end ∧ s.end ≤ inp.length := by
  induction h with
  | new =>
    have := hstep ⟨0, 0, 0⟩ rfl (by simp)
    have h1 := this.it; have h2 := this.lo; have h3 := this.hi
    exact ⟨by show (next _).1.it ≤ (next _).1.end; omega, h3⟩
  | inc s _ ih =>
    have := hstep { s with it := s.end } rfl ih.2
    have h1 := this.it; have h2 := this.lo; have h3 := this.hi
    exact ⟨by show (next _).1.it ≤ (next _).1.end; omega, h3⟩

theorem collect_ends {inp : List Nat} {next : UtfIn → UtfIn × M Unit}
    (hstep : ∀ s : UtfIn, s.it = s.end → s.end ≤ inp.length → StepOk inp s (next s)) :
    ∀ (n : Nat) (s : UtfIn), s.it ≤ s.end → s.end ≤ inp.length → (s.it < inp.length → s.it < s.end) → inp.length - s.it < n →
      UtfIn.collect inp next n s ≠ .error .fuel ∧ (∀ what, UtfIn.collect inp next n s ≠ .error (.ub what)) ∧
      ∀ out, UtfIn.collect inp next n s = .ok out → out.length ≤ inp.length - s.it
  | 0, _, _, _, _, h => by omega
  | n + 1, s, h1, h2, h3, hn => by
    unfold UtfIn.collect
    split
    · exact ⟨by simp, by simp, by simp⟩
    have hs := hstep { s with it := s.end } rfl h2
    have e1 := hs.it; have e2 := hs.lo; have e3 := hs.hi
    simp only at e1 e2
    unfold UtfIn.inc
    cases hx : (next { s with it := s.end }).2 with
    | error e =>
      simp only [bind, Except.bind]
      have := hs.safe; have h' := hs.fuel
      rw [hx] at this h'
      exact ⟨by simpa using h', by simpa using this, by simp⟩
    | ok u =>
      simp only [bind, Except.bind]
      have hm := hs.moves (by rw [hx])
      simp only at hm
      obtain ⟨g1, g2, g3⟩ := collect_ends hstep n (next { s with it := s.end }).1 (by omega) e3 (by rw [e1]; exact hm) (by rw [e1]; omega)
      cases hc : UtfIn.collect inp next n (next { s with it := s.end }).1 with
      | error e => rw [hc] at g1 g2; exact ⟨by simpa using g1, by simpa using g2, by simp⟩
      | ok out =>
        refine ⟨by simp, by simp, ?_⟩
        intro o ho
        have := g3 out hc
        simp only [Except.ok.injEq] at ho
        rw [← ho, List.length_cons]
        rw [e1] at this
        omega

theorem all_ends {inp : List Nat} {next : UtfIn → UtfIn × M Unit}
    (hstep : ∀ s : UtfIn, s.it = s.end → s.end ≤ inp.length → StepOk inp s (next s)) (h0 : StepOk inp ⟨0, 0, 0⟩ (next ⟨0, 0, 0⟩)) :
    (∃ out, UtfIn.all inp next = .ok out ∧ out.length ≤ inp.length) ∨ ∃ m, UtfIn.all inp next = .error (.throw m) := by
  unfold UtfIn.all UtfIn.new
  cases hx : (next ⟨0, 0, 0⟩).2 with
  | error e =>
    have h1 := h0.safe; have h2 := h0.fuel
    rw [hx] at h1 h2
    cases e with
    | throw m => exact .inr ⟨m, rfl⟩
    | ub w => exact absurd rfl (h1 w)
    | fuel => exact absurd rfl h2
  | ok u =>
    have e1 := h0.it; have e2 := h0.lo; have e3 := h0.hi; have e4 := h0.moves (by rw [hx])
    simp only at e1 e2 e4
    obtain ⟨g1, g2, g3⟩ := collect_ends hstep (inp.length + 1) (next ⟨0, 0, 0⟩).1 (by omega) e3 (by rw [e1]; exact e4) (by omega)
    simp only [bind, Except.bind]
    cases hc : UtfIn.collect inp next (inp.length + 1) (next ⟨0, 0, 0⟩).1 with
    | ok out =>
      have := g3 out hc
      exact .inl ⟨out, rfl, by omega⟩
    | error e =>
      rw [hc] at g1 g2
      cases e with
      | throw m => exact .inr ⟨m, rfl⟩
      | ub w => exact absurd rfl (g2 w)
      | fuel => exact absurd rfl g1

/-! ### Moving back -/

/-- The iterator at code point `k` of the encoded `cs`. -/
def At (enc : Nat → List Nat) (cs : List Nat) (k : Nat) (s : UtfIn) : Prop :=
  s.it = ((cs.take k).flatMap enc).length ∧
    match cs[k]? with
    | some c => s.end = s.it + (enc c).length ∧ s.char = c
    | none => s.end = s.it

theorem take_drop_flatMap (enc : Nat → List Nat) (cs : List Nat) (k : Nat) :
    cs.flatMap enc = (cs.take k).flatMap enc ++ (cs.drop k).flatMap enc := by
  conv => lhs; rw [← List.take_append_drop k cs]
  rw [List.flatMap_append]

/-- `next` at the start of a code point. -/
theorem Decodes.next_at {next : List Nat → UtfIn → UtfIn × M Unit} {enc : Nat → List Nat} {P : Nat → Prop} (D : Decodes next enc P)
    {cs : List Nat} (h : ∀ c ∈ cs, P c) {k : Nat} (hk : k ≤ cs.length) {s : UtfIn} (hs : s.it = ((cs.take k).flatMap enc).length)
    (hend : k = cs.length → s.end = s.it) :
    (next (cs.flatMap enc) s).2 = .ok () ∧ At enc cs k (next (cs.flatMap enc) s).1 := by
  by_cases hlt : k < cs.length
  · have hd : cs.drop k = cs[k] :: cs.drop (k + 1) := List.drop_eq_getElem_cons hlt
    have hstep := D.step ((cs.take k).flatMap enc) cs[k] ((cs.drop (k + 1)).flatMap enc) s (h _ (List.getElem_mem hlt)) hs
    have e : (cs.take k).flatMap enc ++ (enc cs[k] ++ (cs.drop (k + 1)).flatMap enc) = cs.flatMap enc := by
      rw [take_drop_flatMap enc cs k, hd, List.flatMap_cons]
    rw [e] at hstep
    rw [hstep]
    refine ⟨rfl, rfl, ?_⟩
    rw [List.getElem?_eq_getElem hlt]
    exact ⟨rfl, rfl⟩
  · have hk' : k = cs.length := by omega
    have e : (cs.take k).flatMap enc = cs.flatMap enc := by rw [hk', List.take_length]
    rw [D.stop _ _ (by rw [hs, e])]
    refine ⟨rfl, hs, ?_⟩
    rw [List.getElem?_eq_none (by omega)]
    exact hend hk'

theorem Decodes.plus_at {next : List Nat → UtfIn → UtfIn × M Unit} {enc : Nat → List Nat} {P : Nat → Prop} (D : Decodes next enc P)
    {cs : List Nat} (h : ∀ c ∈ cs, P c) : ∀ (n k : Nat) (s : UtfIn), k + n ≤ cs.length → At enc cs k s →
      ∃ s', UtfIn.plus (next (cs.flatMap enc)) n s = .ok s' ∧ At enc cs (k + n) s'
  | 0, k, s, _, hs => ⟨s, rfl, hs⟩
  | n + 1, k, s, hk, hs => by
    have hlt : k < cs.length := by omega
    obtain ⟨h1, h2⟩ := hs
    rw [List.getElem?_eq_getElem hlt] at h2
    have hpos : s.end = ((cs.take (k + 1)).flatMap enc).length := by
      rw [List.take_succ_eq_append_getElem hlt, List.flatMap_append, List.length_append, h2.1, h1]
      simp
    obtain ⟨g1, g2⟩ := D.next_at h (k := k + 1) (by omega) (s := { s with it := s.end }) hpos (fun _ => rfl)
    obtain ⟨s', g3, g4⟩ := Decodes.plus_at D h n (k + 1) _ (by omega) g2
    refine ⟨s', ?_, by rw [show k + (n + 1) = k + 1 + n by omega]; exact g4⟩
    unfold UtfIn.plus UtfIn.inc
    rw [g1]
    exact g3

theorem utf8Back_to {inp : List Nat} {q b : Nat} (h : inp[q]? = some b) (hb : b &&& 0xc0 ≠ 0x80) :
    ∀ n, (∀ k, k < n → ∃ c, inp[q + k + 1]? = some c ∧ c &&& 0xc0 = 0x80) → utf8Back inp (q + n) = .ok q
  | 0, _ => by
    cases q with
    | zero => simp only [utf8Back, Nat.zero_add]; rw [h]; simp only; rw [if_neg hb]
    | succ q => simp only [utf8Back, Nat.add_zero]; rw [h]; simp only; rw [if_neg hb]
  | n + 1, hk => by
    obtain ⟨c, h1, h2⟩ := hk n (by omega)
    rw [show q + (n + 1) = (q + n) + 1 by omega, utf8Back, h1]
    simp only
    rw [if_pos h2]
    exact utf8Back_to h hb n fun k hk' => hk k (by omega)

/-- The first byte is no continuation byte, the others are. -/
theorem utf8_shape {c : Nat} (h : c < 0x200000) : ∃ b bs, utf8 c = b :: bs ∧ b &&& 0xc0 ≠ 0x80 ∧ ∀ x ∈ bs, x &&& 0xc0 = 0x80 := by
  have cont : ∀ x, x < 64 → (128 + x) &&& 0xc0 = 0x80 := fun x hx => (cont_iff _ (by omega)).2 (by omega)
  have lead : ∀ b, b < 256 → (b < 128 ∨ 192 ≤ b) → b &&& 0xc0 ≠ 0x80 := fun b hb h e => by
    have := (cont_iff b hb).1 e
    omega
  rcases utf8_cases c with ⟨h1, e⟩ | ⟨h1, h2, e⟩ | ⟨h1, h2, e⟩ | ⟨h1, e⟩ <;> rw [e]
  · exact ⟨_, _, rfl, lead _ (by omega) (by omega), by simp⟩
  · exact ⟨_, _, rfl, lead _ (by omega) (by omega), by simpa using cont _ (by omega)⟩
  · exact ⟨_, _, rfl, lead _ (by omega) (by omega), by simpa using ⟨cont _ (by omega), cont _ (by omega)⟩⟩
  · exact ⟨_, _, rfl, lead _ (by omega) (by omega), by simpa using ⟨cont _ (by omega), cont _ (by omega), cont _ (by omega)⟩⟩

theorem pre_len {enc : Nat → List Nat} {cs : List Nat} {k : Nat} (hlt : k < cs.length) :
    ((cs.take (k + 1)).flatMap enc).length = ((cs.take k).flatMap enc).length + (enc cs[k]).length := by
  rw [List.take_succ_eq_append_getElem hlt, List.flatMap_append, List.length_append]
  simp

theorem enc_at {enc : Nat → List Nat} {cs : List Nat} {k : Nat} (hlt : k < cs.length) (j : Nat) (hj : j < (enc cs[k]).length) :
    (cs.flatMap enc)[((cs.take k).flatMap enc).length + j]? = (enc cs[k])[j]? := by
  rw [take_drop_flatMap enc cs k, get_at', List.drop_eq_getElem_cons hlt, List.flatMap_cons, List.getElem?_append_left hj]

theorem utf8_minus_loop {cs : List Nat} (h : ∀ c ∈ cs, c < 0x200000) : ∀ (n k : Nat) (s : UtfIn), k + n ≤ cs.length →
    s.it = ((cs.take (k + n)).flatMap utf8).length → (k + n = cs.length → s.end = s.it) →
      ∃ s', utf8MinusLoop (cs.flatMap utf8) n s = .ok s' ∧ s'.it = ((cs.take k).flatMap utf8).length ∧ (k = cs.length → s'.end = s'.it)
  | 0, k, s, _, hs, he => ⟨s, rfl, hs, he⟩
  | n + 1, k, s, hk, hs, he => by
    have hlt : k + n < cs.length := by omega
    obtain ⟨b, bs, e, hb, hbs⟩ := utf8_shape (h cs[k + n] (List.getElem_mem hlt))
    have hl := pre_len (enc := utf8) hlt
    rw [show k + n + 1 = k + (n + 1) by omega, ← hs, e, List.length_cons] at hl
    have hback : utf8Back (cs.flatMap utf8) (((cs.take (k + n)).flatMap utf8).length + bs.length) = .ok ((cs.take (k + n)).flatMap utf8).length := by
      refine utf8Back_to (b := b) ?_ hb _ ?_
      · have := enc_at (enc := utf8) hlt 0 (by simp [e])
        rw [Nat.add_zero, e] at this
        simpa using this
      · intro j hj
        have := enc_at (enc := utf8) hlt (j + 1) (by simp [e]; omega)
        rw [e, List.getElem?_cons_succ, List.getElem?_eq_getElem hj] at this
        exact ⟨_, this, hbs _ (List.getElem_mem hj)⟩
    obtain ⟨s', g1, g2, g3⟩ := utf8_minus_loop h n k { s with it := ((cs.take (k + n)).flatMap utf8).length, «end» := s.it } (by omega) rfl (by omega)
    refine ⟨s', ?_, g2, g3⟩
    unfold utf8MinusLoop
    rw [hl] at g1 ⊢
    simp only [Nat.add_eq, ← Nat.add_assoc]
    rw [hback]
    exact g1

theorem utf8_minus_at {cs : List Nat} (h : ∀ c ∈ cs, c < 0x200000) {n k : Nat} {s : UtfIn} (hk : k + n ≤ cs.length) (hs : At utf8 cs (k + n) s) :
    ∃ s', utf8Minus (cs.flatMap utf8) n s = .ok s' ∧ At utf8 cs k s' := by
  obtain ⟨s1, h1, h2, h3⟩ := utf8_minus_loop h n k s hk hs.1 (fun e => by
    have := hs.2
    rw [List.getElem?_eq_none (by omega)] at this
    exact this)
  obtain ⟨g1, g2⟩ := utf8_decodes.next_at h (k := k) (by omega) h2 h3
  refine ⟨(utf8Next (cs.flatMap utf8) s1).1, ?_, g2⟩
  unfold utf8Minus
  rw [h1]
  simp only [bind, Except.bind]
  rw [g1]

theorem utf16_minus_loop {cs : List Nat} (h : ∀ c ∈ cs, Scalar c) : ∀ (n k : Nat) (s : UtfIn), k + n ≤ cs.length →
    s.it = ((cs.take (k + n)).flatMap utf16).length → (k + n = cs.length → s.end = s.it) →
      ∃ s', utf16MinusLoop (cs.flatMap utf16) n s = .ok s' ∧ s'.it = ((cs.take k).flatMap utf16).length ∧ (k = cs.length → s'.end = s'.it)
  | 0, k, s, _, hs, he => ⟨s, rfl, hs, he⟩
  | n + 1, k, s, hk, hs, he => by
    have hlt : k + n < cs.length := by omega
    have hsc : cs[k + n] < 0xd800 ∨ (0xdfff < cs[k + n] ∧ cs[k + n] ≤ 0x10ffff) := h cs[k + n] (List.getElem_mem hlt)
    have hl := pre_len (enc := utf16) hlt
    rw [show k + n + 1 = k + (n + 1) by omega, ← hs] at hl
    obtain ⟨s', g1, g2, g3⟩ := utf16_minus_loop h n k { s with it := ((cs.take (k + n)).flatMap utf16).length, «end» := s.it } (by omega) rfl (by omega)
    refine ⟨s', ?_, g2, g3⟩
    rcases utf16_cases cs[k + n] with ⟨h1, e⟩ | ⟨h1, e⟩
    · rw [e, List.length_singleton] at hl
      have := enc_at (enc := utf16) hlt 0 (by simp [e])
      rw [Nat.add_zero, e] at this
      unfold utf16MinusLoop
      rw [hl] at g1 ⊢
      simp only [Nat.add_eq, Nat.add_zero]
      rw [this]
      simp only [List.getElem?_cons_zero]
      rw [if_neg (by omega)]
      exact g1
    · rw [e] at hl
      simp only [List.length_cons, List.length_nil, Nat.zero_add, Nat.reduceAdd] at hl
      have := enc_at (enc := utf16) hlt 1 (by simp [e])
      rw [e] at this
      unfold utf16MinusLoop
      rw [hl] at g1 ⊢
      simp only [Nat.add_eq]
      rw [this]
      simp only [List.getElem?_cons_succ, List.getElem?_cons_zero]
      rw [if_pos (by omega)]
      exact g1

theorem utf16_minus_at {cs : List Nat} (h : ∀ c ∈ cs, Scalar c) {n k : Nat} {s : UtfIn} (hk : k + n ≤ cs.length) (hs : At utf16 cs (k + n) s) :
    ∃ s', utf16Minus (cs.flatMap utf16) n s = .ok s' ∧ At utf16 cs k s' := by
  obtain ⟨s1, h1, h2, h3⟩ := utf16_minus_loop h n k s hk hs.1 (fun e => by
    have := hs.2
    rw [List.getElem?_eq_none (by omega)] at this
    exact this)
  obtain ⟨g1, g2⟩ := utf16_decodes.next_at h (k := k) (by omega) h2 h3
  refine ⟨(utf16Next (cs.flatMap utf16) s1).1, ?_, g2⟩
  unfold utf16Minus
  rw [h1]
  simp only [bind, Except.bind]
  rw [g1]

/-! ### Byte order -/

theorem flipLoop_eq (L : Nat) : ∀ (n first : Nat) (bytes : List Nat), bytes.length = L → first ≤ L → L - first < n →
    ∃ out, flipLoop n first (L - 1 - first) bytes = .ok out ∧ out.length = L ∧
      ∀ k, k < L → out[k]? = if first ≤ k ∧ k ≤ L - 1 - first then bytes[L - 1 - k]? else bytes[k]?
  | 0, _, _, _, _, h => by omega
  | n + 1, first, bytes, hl, hf, hn => by
    unfold flipLoop
    split
    · rename_i hlt
      have h1 : first < bytes.length := by omega
      have h2 : L - 1 - first < bytes.length := by omega
      rw [List.getElem?_eq_getElem h1, List.getElem?_eq_getElem h2]
      dsimp only
      have e : L - 1 - first - 1 = L - 1 - (first + 1) := by omega
      rw [e]
      obtain ⟨out, g1, g2, g3⟩ := flipLoop_eq L n (first + 1) ((bytes.set first bytes[L - 1 - first]).set (L - 1 - first) bytes[first])
        (by simpa using hl) (by omega) (by omega)
      refine ⟨out, g1, g2, ?_⟩
      intro k hk
      rw [g3 k hk]
      simp only [List.getElem?_set, List.length_set]
      by_cases c1 : k = first
      · subst c1
        rw [if_neg (by omega), if_neg (by omega), if_pos rfl, if_pos h1, if_pos (by omega), List.getElem?_eq_getElem]
      · by_cases c2 : k = L - 1 - first
        · subst c2
          rw [if_neg (by omega), if_pos rfl, if_pos h2, if_pos (by omega), show L - 1 - (L - 1 - first) = first by omega,
            List.getElem?_eq_getElem]
        · by_cases c3 : first + 1 ≤ k ∧ k ≤ L - 1 - (first + 1)
          · rw [if_pos c3, if_neg (by omega), if_neg (by omega), if_pos (by omega)]
          · rw [if_neg c3, if_neg (by omega), if_neg (by omega), if_neg (by omega)]
    · rename_i hlt
      refine ⟨bytes, rfl, hl, ?_⟩
      intro k hk
      split
      · rw [show L - 1 - k = k by omega]
      · rfl

theorem bytesOf_length : ∀ w v, (bytesOf w v).length = w
  | 0, _ => rfl
  | w + 1, v => by rw [bytesOf, List.length_cons, bytesOf_length w]

theorem bytesOf_get : ∀ (w v k : Nat), k < w → (bytesOf w v)[k]? = some (byteAt v k)
  | 0, _, _, h => by omega
  | w + 1, v, 0, _ => by simp [bytesOf, byteAt]
  | w + 1, v, k + 1, h => by
    rw [bytesOf, List.getElem?_cons_succ, bytesOf_get w _ k (by omega)]
    unfold byteAt
    rw [Nat.pow_succ', Nat.div_div_eq_div_mul]

theorem ofBytes_byteAt : ∀ (bs : List Nat) (k : Nat), (∀ b ∈ bs, b < 256) → byteAt (ofBytes bs) k = (bs[k]?).getD 0
  | [], k, _ => by simp [ofBytes, byteAt]
  | b :: bs, 0, h => by
    have := h b (by simp)
    simp only [ofBytes, byteAt, Nat.pow_zero, Nat.div_one, List.getElem?_cons_zero, Option.getD_some]
    omega
  | b :: bs, k + 1, h => by
    have hb := h b (by simp)
    rw [List.getElem?_cons_succ, ← ofBytes_byteAt bs k (fun x hx => h x (by simp [hx]))]
    have e : ofBytes (b :: bs) / 256 = ofBytes bs := by
      rw [ofBytes]
      omega
    unfold byteAt
    rw [Nat.pow_succ', ← Nat.div_div_eq_div_mul, e]

theorem ofBytes_lt : ∀ (bs : List Nat), (∀ b ∈ bs, b < 256) → ofBytes bs < 256 ^ bs.length
  | [], _ => by simp [ofBytes]
  | b :: bs, h => by
    have hb := h b (by simp)
    have := ofBytes_lt bs fun x hx => h x (by simp [hx])
    rw [ofBytes, List.length_cons, Nat.pow_succ']
    omega

theorem byteAt_ext : ∀ (w : Nat) (a b : Nat), a < 256 ^ w → b < 256 ^ w → (∀ k, k < w → byteAt a k = byteAt b k) → a = b
  | 0, a, b, ha, hb, _ => by simp at ha hb; omega
  | w + 1, a, b, ha, hb, h => by
    have h0 := h 0 (by omega)
    simp only [byteAt, Nat.pow_zero, Nat.div_one] at h0
    rw [Nat.pow_succ'] at ha hb
    have := byteAt_ext w (a / 256) (b / 256) (by omega) (by omega) (fun k hk => by
      have := h (k + 1) (by omega)
      unfold byteAt at this ⊢
      rw [Nat.pow_succ', ← Nat.div_div_eq_div_mul, ← Nat.div_div_eq_div_mul] at this
      exact this)
    omega

theorem flip_spec {w : Nat} (hw : 0 < w) (v : Nat) : ∃ v', flip w v = .ok v' ∧ v' < 256 ^ w ∧ ∀ k, k < w → byteAt v' k = byteAt v (w - 1 - k) := by
  obtain ⟨out, g1, g2, g3⟩ := flipLoop_eq w (w + 1) 0 (bytesOf w v) (bytesOf_length w v) (by omega) (by omega)
  have hb : ∀ b ∈ out, b < 256 := by
    intro b hb
    obtain ⟨k, hk, e⟩ := List.mem_iff_getElem.1 hb
    have := g3 k (by omega)
    rw [if_pos (by omega), List.getElem?_eq_getElem hk, bytesOf_get _ _ _ (by omega)] at this
    rw [← e, Option.some.inj this]
    unfold byteAt
    omega
  refine ⟨ofBytes out, ?_, ?_, ?_⟩
  · unfold flip
    rw [Nat.sub_zero] at g1
    rw [g1]
    rfl
  · have := ofBytes_lt out hb
    rwa [g2] at this
  · intro k hk
    rw [ofBytes_byteAt out k hb, g3 k hk, if_pos (by omega), bytesOf_get _ _ _ (by omega)]
    rfl

end Lexertl.Utf
