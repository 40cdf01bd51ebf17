import Verif.Proofs.EncPos
import Verif.Proofs.EagerPos

/-
`build_dfa` and `build`.
-/
namespace Lexertl
open Spec

/-- Character classes as a relation. -/
def clsRel (classes : List Charset) (i x : Nat) : Prop := ∃ hi : i < classes.length, Mem x classes[i].token

/-- The classes of CR and LF, if the parser has needed them. -/
def CrCase (tr : Traits) (m : CharsetMap) (crId nlId : Nat) : Prop :=
  (crId = tr.npos ∧ nlId = tr.npos) ∨
  ((tr.compressed = true → ∃ id, (Token.ofRange 0 0, id) ∈ m) ∧ crId ≠ tr.npos ∧ nlId ≠ tr.npos ∧
    (Token.ofChar 13, crId) ∈ m ∧ (Token.ofChar 10, nlId) ∈ m)

theorem prepare_spec (tr : Traits) (m : CharsetMap) (hm : CsInv m) (crId nlId : Nat) (hcr : CrCase tr m crId nlId) :
    ∃ classes mapping lk cr nl zid, prepareDfa tr true m crId nlId =
        .ok (classes, mapping, lk, cr, nl, zid) ∧
      ((crId = tr.npos ∧ nlId = tr.npos ∧ cr = tr.npos ∧ nl = tr.npos) ∨
        ((tr.compressed = true → clsRel classes zid 0) ∧ crId ≠ tr.npos ∧ clsRel classes cr 13 ∧ clsRel classes nl 10)) ∧
      ClsOk m mapping classes.length (clsRel classes) ∧ classes.length ≤ 256 ∧ lk.length = 256 ∧
      ∀ c, c < 256 → (∃ i, lk[c]? = some (7 + i) ∧ clsRel classes i c) ∨
        (lk[c]? = some 6 ∧ ∀ e ∈ m, ¬ Mem c e.1) := by
  obtain ⟨classes, mapping, lk, h1, h2, h3, h4, h5, h6, h7, h8, h9, h10⟩ :=
    Props.C08_alphabet_partition_exact m (fun e he => hm.good e he) hm.small
      (fun a ha b hb he => pairwise_ne_inj Prod.snd hm.ids ha hb he)
  have hC : ClsOk m mapping classes.length (clsRel classes) := by
    refine ⟨?_, ?_, ?_, ?_⟩
    · intro i hi
      obtain ⟨x, hx⟩ := h4 _ (List.getElem_mem hi)
      exact ⟨x, hi, hx⟩
    · rintro i x ⟨hi, _⟩; exact hi
    · rintro i j x ⟨hi, hx⟩ ⟨hj, hy⟩; exact h5 i j hi hj x hx hy
    · intro c hc
      obtain ⟨s, s1, s2, s3, s4⟩ := h7 c hc
      refine ⟨s, s1, s2, s3, fun x => ?_⟩
      rw [s4]
      constructor
      · rintro ⟨i, hi, h, h'⟩; exact ⟨i, h, hi, h'⟩
      · rintro ⟨i, h, hi, h'⟩; exact ⟨i, hi, h, h'⟩
  have h3' : buildLookup 0 classes (List.replicate 256 ixDead) = some lk := h3
  have hfirst : ∀ x id, (Token.ofChar x, id) ∈ m → ∃ i, firstClass mapping id = .ok i ∧ clsRel classes i x := by
    intro x id hmem
    have hone : ∀ y, Mem y (Token.ofChar x) ↔ y = x := by
      intro y
      have h := Token.mem_insert [] (x, x) Token.normal_nil (Nat.le_refl x)
      refine (h y).trans ?_
      unfold Mem
      simp
      omega
    obtain ⟨s, s1, _, s3, s4⟩ := hC.map _ hmem
    obtain ⟨i0, hi0, _⟩ := (s4 x).1 ((hone x).2 rfl)
    cases s with
    | nil => cases hi0
    | cons i s =>
      refine ⟨i, ?_, ?_⟩
      · unfold firstClass mappingAt
        simp only [s1, bind, Except.bind]
      · obtain ⟨y, hy⟩ := hC.ne i (s3 i (by simp))
        have := (hone y).1 ((s4 y).2 ⟨i, by simp, hy⟩)
        exact this ▸ hy
  obtain ⟨cr, nl, zid, hprep, hcls⟩ : ∃ cr nl zid, prepareDfa tr true m crId nlId =
      .ok (classes, mapping, lk, cr, nl, zid) ∧ ((crId = tr.npos ∧ nlId = tr.npos ∧ cr = tr.npos ∧ nl = tr.npos) ∨
        ((tr.compressed = true → clsRel classes zid 0) ∧ crId ≠ tr.npos ∧ clsRel classes cr 13 ∧ clsRel classes nl 10)) := by
    rcases hcr with ⟨rfl, rfl⟩ | ⟨k0, k1, k2, k3, k4⟩
    · refine ⟨_, _, tr.npos, ?_, .inl ⟨rfl, rfl, rfl, rfl⟩⟩
      unfold prepareDfa
      simp only [h1, h2, h3', if_true, ne_eq, not_true_eq_false, if_false, false_or, false_and,
        bind, Except.bind]
    · obtain ⟨cr, c1, c2⟩ := hfirst 13 crId k3
      obtain ⟨nl, n1, n2⟩ := hfirst 10 nlId k4
      cases hc : tr.compressed with
      | false =>
        refine ⟨cr, nl, tr.npos, ?_, .inr ⟨fun h => (Bool.false_ne_true h).elim, k1, c2, n2⟩⟩
        unfold prepareDfa
        simp only [h1, h2, h3', if_true, ne_eq, k1, k2, not_false_eq_true, c1, n1, hc, Bool.false_eq_true,
          and_false, if_false, bind, Except.bind]
      | true =>
        obtain ⟨id, hid⟩ := k0 hc
        cases hf : m.find? (fun e => e.1 == Token.ofRange 0 0) with
        | none =>
          have := List.find?_eq_none.1 hf _ hid
          simp at this
        | some e =>
          have he1 := List.find?_some hf
          have he1 : e.1 = Token.ofRange 0 0 := by simpa using he1
          have he2 := List.mem_of_find?_eq_some hf
          obtain ⟨z, z1, z2⟩ := hfirst 0 e.2 (by rw [show Token.ofChar 0 = e.1 from he1.symm]; exact he2)
          refine ⟨cr, nl, z, ?_, .inr ⟨fun _ => z2, k1, c2, n2⟩⟩
          unfold prepareDfa
          simp only [h1, h2, h3', if_true, ne_eq, k1, k2, not_false_eq_true, c1, n1, hc, hf, z1, true_or, and_self,
            bind, Except.bind]
  refine ⟨classes, mapping, lk, cr, nl, zid, hprep, hcls, hC, hC.le ?_, h8, ?_⟩
  · rintro i x ⟨hi, hx⟩
    obtain ⟨e, he, hxe⟩ := (h6 x).1 ⟨_, List.getElem_mem hi, hx⟩
    obtain ⟨r, hr, _, h⟩ := hxe
    have := (hm.good e he).2.2 r hr
    omega
  · intro c hc
    by_cases h : ∃ e ∈ m, Mem c e.1
    · left
      obtain ⟨k, hk, hm'⟩ := (h6 c).2 h
      obtain ⟨i, hi, rfl⟩ := List.getElem_of_mem hk
      exact ⟨i, (h9 c i hc).2 ⟨hi, hm'⟩, hi, hm'⟩
    · right
      have : ∀ e ∈ m, ¬ Mem c e.1 := fun e he h' => h ⟨e, he, h'⟩
      exact ⟨(h10 c hc).2 this, this⟩

/-- What is asked of `$` for the words `K j` of the rules. -/
structure EolWords (tr : Traits) (K : Nat → List Sym → Prop) : Prop where
  /-- no word has CR just before `$` -/
  crfol : ∀ j u w, ¬ K j (u ++ .ch 13 :: .eol :: w)
  /-- where a rule goes on with `$`, no rule goes on with CR or LF -/
  clash : ∀ u i j w w' c, c = 13 ∨ c = 10 → K i (u ++ .eol :: w) → ¬ K j (u ++ .ch c :: w')
  /-- only one rule goes on with `$` -/
  one : ∀ u i j w w', K i (u ++ .eol :: w) → K j (u ++ .eol :: w') → i = j
  /-- nor with the bytes of CR or LF -/
  zero : tr.compressed = true → ∀ u i j w w' c, c = 13 ∨ c = 10 → K i (u ++ .eol :: w) →
    ¬ K j (u ++ List.replicate (if tr.char24 then 2 else 1) (.ch 0) ++ .ch c :: w')

section
variable {E : DfaEnv} {m : CharsetMap} {ts : List (Tree × Nat)} {d : Nat → NodeData}
  {K : Nat → List Sym → Prop} {ncls : Nat} {cls : Nat → Nat → Prop}

theorem Bundle.rk_after (B : Bundle E.tr m E.heap ts d K) {u : List Sym} {n : Nat}
    (h : Tree.after E.heap.fol (Reads (tokReads E.tr m) E.heap) (starts ts) u n) : ∃ j, Rk ts n j :=
  Tree.after_mem (A := Reads (tokReads E.tr m) E.heap) (fun q => ∃ j, Rk ts q j)
    (fun _ ⟨j, hp⟩ _ hq => ⟨j, B.rk_fol hp hq⟩) u _ (fun _ hp => Bundle.rk_starts hp) _ h

/-- A node that can be reached and can read a symbol belongs to a word of its rule. -/
theorem Bundle.word_of (B : Bundle E.tr m E.heap ts d K) {u : List Sym} {n j : Nat} {s : Sym} (hj : Rk ts n j)
    (h : Tree.after E.heap.fol (Reads (tokReads E.tr m) E.heap) (starts ts) u n)
    (hr : Reads (tokReads E.tr m) E.heap n s) : ∃ w, K j (u ++ s :: w) := by
  obtain ⟨t, ht, hn⟩ := hj
  obtain ⟨b, e, H⟩ := B.tree j t ht
  obtain ⟨w, hw⟩ := H.complete hn
  have hw' : ∃ w', Tree.after E.heap.fol (Reads (tokReads E.tr m) E.heap) [n] (s :: w') t.2 := by
    cases w with
    | nil =>
      have hw : t.2 ∈ [n] := hw
      rw [List.mem_singleton] at hw
      obtain ⟨tk, h1, _⟩ := hr
      rw [← hw, Heap.tok_of_fin H.fin] at h1
      cases h1
    | cons s' w' =>
      obtain ⟨p, hp, _, h2⟩ := hw
      exact ⟨w', p, hp, by rw [List.mem_singleton] at hp; rw [hp]; exact hr, h2⟩
  obtain ⟨w', hw'⟩ := hw'
  exact ⟨w', (B.words ht _).1 (Tree.after_trans _ hw' u _ h)⟩

theorem reads_eol {n : Nat} (h : E.heap.tokOf n = some E.tr.eolToken) :
    Reads (tokReads E.tr m) E.heap n .eol := ⟨_, h, rfl⟩

theorem EolOk.of_none (hno : ∀ n j, Rk ts n j → E.heap.tokOf n ≠ some E.tr.eolToken) (B : Bundle E.tr m E.heap ts d K) :
    EolOk E m ts ncls := by
  refine ⟨?_, ?_, ?_, ?_, ?_⟩
  · rintro ⟨n, j, h1, h2⟩; exact absurd h2 (hno n j h1)
  · intro u n c s h _ _ _ _ q hq
    obtain ⟨j, hj⟩ := B.rk_after h
    exact hno q j (B.rk_fol hj hq)
  · intro u a n c s h he
    obtain ⟨j, hj⟩ := B.rk_after h
    exact absurd he (hno a j hj)
  · intro n j hj
    rw [eolCount_zero fun q hq => hno q j (B.rk_fol hj hq)]; omega
  · intro u a b h _ he
    obtain ⟨j, hj⟩ := B.rk_after h
    exact absurd he (hno a j hj)

theorem EolOk.of_words (B : Bundle E.tr m E.heap ts d K) (C : ClsOk m E.mapping ncls cls) (hK : EolWords E.tr K)
    (hcr : cls E.cr 13) (hnl : cls E.nl 10) (hone : ∀ t ∈ ts, OneEol E.tr E.heap t.1) : EolOk E m ts ncls := by
  have hread : ∀ n c s i x, c ∈ m → E.heap.tokOf n = some c.2 → E.mapping[c.2]? = some s → i ∈ s → cls i x →
      Reads (tokReads E.tr m) E.heap n (.ch x) := by
    intro n c s i x hc ht hs hi hx
    obtain ⟨s', s1, _, _, s4⟩ := C.map c hc
    rw [hs] at s1
    cases s1
    exact ⟨_, ht, c, hc, rfl, (s4 x).2 ⟨i, hi, hx⟩⟩
  refine ⟨fun _ => ⟨C.lt _ _ hcr, C.lt _ _ hnl⟩, ?_, ?_, ?_, ?_⟩
  · intro u n c s h hc ht hs hi q hq he
    obtain ⟨j, hj⟩ := B.rk_after h
    have h2 : Tree.after E.heap.fol (Reads (tokReads E.tr m) E.heap) (starts ts) (u ++ [.ch 13]) q :=
      (Tree.after_snoc ..).2 ⟨n, h, hread n c s _ 13 hc ht hs hi hcr, hq⟩
    obtain ⟨w, hw⟩ := B.word_of (B.rk_fol hj hq) h2 (reads_eol he)
    rw [List.append_assoc] at hw
    exact hK.crfol _ _ _ hw
  · intro u a n c s ha he hn hc ht hs
    obtain ⟨i, hi⟩ := B.rk_after ha
    obtain ⟨j, hj⟩ := B.rk_after hn
    obtain ⟨w, hw⟩ := B.word_of hi ha (reads_eol he)
    constructor
    · intro h
      obtain ⟨w', hw'⟩ := B.word_of hj hn (hread n c s _ 13 hc ht hs h hcr)
      exact hK.clash u i j w w' 13 (.inl rfl) hw hw'
    · intro h
      obtain ⟨w', hw'⟩ := B.word_of hj hn (hread n c s _ 10 hc ht hs h hnl)
      exact hK.clash u i j w w' 10 (.inr rfl) hw hw'
  · rintro n j ⟨t, ht, hn⟩
    obtain ⟨b, e, H⟩ := B.tree j t ht
    rw [H.lay.fol n (t.1.act_sub n hn)]
    exact (hone t (List.mem_of_getElem? ht)).follow n
  · intro u a b ha hb ea eb
    obtain ⟨i, hi⟩ := B.rk_after ha
    obtain ⟨j, hj⟩ := B.rk_after hb
    obtain ⟨w, hw⟩ := B.word_of hi ha (reads_eol ea)
    obtain ⟨w', hw'⟩ := B.word_of hj hb (reads_eol eb)
    have := hK.one u i j w w' hw hw'
    subst this
    obtain ⟨t, ht, h1⟩ := hi
    obtain ⟨t', ht', h2⟩ := hj
    rw [ht] at ht'
    cases ht'
    have hp := (hone t (List.mem_of_getElem? ht)).pos
    unfold eolCount at hp
    rw [List.countP_eq_length_filter] at hp
    have m1 : a ∈ t.1.pos.filter fun n => E.heap.tokOf n == some E.tr.eolToken :=
      List.mem_filter.2 ⟨t.1.act_sub a h1, by simp [ea]⟩
    have m2 : b ∈ t.1.pos.filter fun n => E.heap.tokOf n == some E.tr.eolToken :=
      List.mem_filter.2 ⟨t.1.act_sub b h2, by simp [eb]⟩
    match hl : t.1.pos.filter fun n => E.heap.tokOf n == some E.tr.eolToken with
    | [] => rw [hl] at m1; cases m1
    | [x] =>
      rw [hl, List.mem_singleton] at m1 m2
      rw [m1, m2]
    | x :: y :: l => rw [hl] at hp; simp at hp

end

/-- How `$` is used by the rules `ts` of one lexer state. -/
def EolCase (tr : Traits) (m : CharsetMap) (heap : Heap) (ts : List (Tree × Nat)) (K : Nat → List Sym → Prop) (crId nlId : Nat) : Prop :=
  (crId = tr.npos ∧ nlId = tr.npos ∧ ∀ n j, Rk ts n j → heap.tokOf n ≠ some tr.eolToken) ∨
  ((tr.compressed = true → ∃ id, (Token.ofRange 0 0, id) ∈ m) ∧ 264 ≤ tr.npos ∧ crId ≠ tr.npos ∧ nlId ≠ tr.npos ∧
    (Token.ofChar 13, crId) ∈ m ∧ (Token.ofChar 10, nlId) ∈ m ∧ EolWords tr K ∧ ∀ t ∈ ts, OneEol tr heap t.1)

/-- In a row reached by a match of a rule in `Cm`, if no other rule matches a text
starting with that match, there is no transition. -/
def DeadAt (d : Dfa) (n : Nat) (M At : Nat → List Sym → Prop) (Cm : Nat → Prop) : Prop :=
  ∀ j, Cm j → ∀ r u, At r u → M j u → (∀ i w, i < n → i ≠ j → ¬ M i (u ++ w)) →
    (∀ c, c < 256 → LuState.step d r c = .ok 0) ∧ getCell d.rows r ixEol = .ok 0

section
variable {lk : List Nat} {rows : List Row} {size n : Nat} {info : Nat → NodeData} {K At : Nat → List Sym → Prop}

/-- A cell of a reachable row, in the column of a character. -/
theorem GAuto.cell (A : GAuto ⟨lk, rows⟩ size n info K At) {r x i : Nat} {u : List Sym} (h : At r u) (hx : x < 256)
    (hi : lk[x]? = some (7 + i)) : ∃ v, getCell rows r (ixTransitions + i) = .ok v ∧ (v ≠ 0 → At v (u ++ [.ch x])) := by
  have hs : LuState.step ⟨lk, rows⟩ r x = getCell rows r (7 + i) := by
    unfold LuState.step
    rw [hi]
  rcases A.step r u x h hx with ⟨v, h1, _, h3⟩ | ⟨h1, _⟩
  · exact ⟨v, hs ▸ h1, fun _ => h3⟩
  · exact ⟨0, hs ▸ h1, fun h => absurd rfl h⟩

/-- `fix_clashes` (compressed) changes nothing if `$` and line ends are kept apart. -/
theorem fixComp_id (A : GAuto ⟨lk, rows⟩ size n info K At) {tr : Traits} (hK : EolWords tr K) (hc : tr.compressed = true)
    (sz : Nat) {cr nl z : Nat} (hcr : lk[13]? = some (7 + cr)) (hnl : lk[10]? = some (7 + nl)) (hz : lk[0]? = some (7 + z))
    (h0 : ∀ c, c = cr ∨ c = nl ∨ c = z → getCell rows 0 (ixTransitions + c) = .ok 0)
    (eols : List Nat) (he : ∀ r ∈ eols, ∃ u e, At r u ∧ getCell rows r ixEol = .ok e ∧ e ≠ 0) :
    ∀ i, i = 0 ∨ i = (if tr.char24 then 2 else 1) →
      fixClashesComp tr.char24 sz cr nl z eols i rows = .ok rows := by
  induction eols with
  | nil => intro i _; rfl
  | cons r eols ih =>
    intro i hi
    obtain ⟨u, e, hu, hev, hne⟩ := he r (by simp)
    have ih := ih fun r hr => he r (by simp [hr])
    obtain ⟨e', k1, k2, _⟩ := A.eol r u hu
    rw [show getCell rows r ixEol = .ok e' from k1] at hev
    cases hev
    obtain ⟨j, w, _, hw⟩ := A.live _ _ (k2 hne)
    rw [List.append_assoc] at hw
    have hw : K j (u ++ .eol :: w) := hw
    -- the row reached by following zeros
    have hptr : ∃ ptr, followZero z (if tr.char24 then 2 else 1) rows ((if tr.char24 then 2 else 1) - i) r i = .ok ptr ∧
        getCell rows ptr (ixTransitions + cr) = .ok 0 ∧ getCell rows ptr (ixTransitions + nl) = .ok 0 := by
      have hend : ∀ ptr v, At ptr v → (∀ c w' j', c = 13 ∨ c = 10 → ¬ K j' (v ++ .ch c :: w')) →
          getCell rows ptr (ixTransitions + cr) = .ok 0 ∧ getCell rows ptr (ixTransitions + nl) = .ok 0 := by
        intro ptr v hv hno
        have hone : ∀ c x, c = 13 ∨ c = 10 → lk[c]? = some (7 + x) → getCell rows ptr (ixTransitions + x) = .ok 0 := by
          intro c x hcc hx
          obtain ⟨y, y1, y2⟩ := A.cell hv (by omega) hx
          by_cases hy : y = 0
          · rw [y1, hy]
          · obtain ⟨j', w', _, hw'⟩ := A.live _ _ (y2 hy)
            rw [List.append_assoc] at hw'
            exact absurd hw' (hno c w' j' hcc)
        exact ⟨hone 13 cr (.inl rfl) hcr, hone 10 nl (.inr rfl) hnl⟩
      have hnull : getCell rows 0 (ixTransitions + cr) = .ok 0 ∧ getCell rows 0 (ixTransitions + nl) = .ok 0 :=
        ⟨h0 _ (.inl rfl), h0 _ (.inr (.inl rfl))⟩
      rcases hi with rfl | rfl
      · have hzero := hK.zero hc u j
        cases h24 : tr.char24 with
        | false =>
          rw [h24] at hzero
          simp only [Bool.false_eq_true, if_false] at hzero ⊢
          obtain ⟨v, v1, v2⟩ := A.cell hu (x := 0) (by omega) hz
          refine ⟨v, ?_, ?_⟩
          · simp only [followZero, v1, bind, Except.bind, Nat.sub_zero, Nat.zero_lt_one, if_true]
          · by_cases hv : v = 0
            · rw [hv]; exact hnull
            · exact hend v _ (v2 hv) fun c w' j' hcc => hzero j' w w' c hcc hw
        | true =>
          rw [h24] at hzero
          simp only [if_true] at hzero ⊢
          obtain ⟨v, v1, v2⟩ := A.cell hu (x := 0) (by omega) hz
          have hv' : ∃ v', getCell rows v (ixTransitions + z) = .ok v' ∧
              (v' ≠ 0 → At v' (u ++ [.ch 0] ++ [.ch 0])) := by
            by_cases hv : v = 0
            · rw [hv]; exact ⟨0, h0 _ (.inr (.inr rfl)), fun h => absurd rfl h⟩
            · exact A.cell (v2 hv) (by omega) hz
          obtain ⟨v', w1, w2⟩ := hv'
          refine ⟨v', ?_, ?_⟩
          · simp only [followZero, v1, w1, bind, Except.bind, Nat.sub_zero, Nat.zero_lt_two, if_true, Nat.zero_add,
              Nat.one_lt_two]
          · by_cases hv : v' = 0
            · rw [hv]; exact hnull
            · refine hend v' _ (w2 hv) fun c w' j' hcc => ?_
              have := hzero j' w w' c hcc hw
              simpa [List.replicate] using this
      · refine ⟨r, by rw [Nat.sub_self]; rfl, hend r u hu fun c w' j' hcc => hK.clash u j j' w w' c hcc hw⟩
    obtain ⟨ptr, p1, p2, p3⟩ := hptr
    rw [fixClashesComp]
    have hmax : Nat.max i (if tr.char24 then 2 else 1) = if tr.char24 then 2 else 1 := by
      rcases hi with rfl | rfl
      · exact Nat.zero_max _
      · exact Nat.max_self _
    simp only [show getCell rows r ixEol = .ok _ from k1, p1, p2, p3, bind, Except.bind, ne_eq, not_true_eq_false,
      if_false, hmax]
    exact ih _ (.inr rfl)

end

/-- After a first symbol of a match of a rule out of `P` the table goes on with that match. -/
def LiveAt (d : Dfa) (M At : Nat → List Sym → Prop) (P : Nat → Prop) : Prop :=
  ∀ j, P j → ∀ (r : Nat) (u : List Sym) (s : Sym) (c : Nat) (w : List Sym), At r (u ++ [s]) → c < 256 →
    M j (u ++ [s] ++ .ch c :: w) → LuState.step d r c ≠ .ok 0

/-- `build_dfa` on the trees of the rules. -/
theorem buildDfa_spec (tr : Traits) (allow : Bool) (addr : Nat → Nat) (heap : Heap) (m : CharsetMap)
    (root : Tree) (used : List Nat) (ts : List (Tree × Nat)) (d : Nat → NodeData)
    (K : Nat → List Sym → Prop) (hm : CsInv m) (B : Bundle tr m heap ts d K)
    (hroot : root.firstpos = starts ts) (hne : starts ts ≠ []) (hnpos : 263 ≤ tr.npos)
    (crId nlId : Nat) (hcase : EolCase tr m heap ts K crId nlId) :
    ∃ out At, buildDfa tr true allow addr heap m crId nlId root used = .ok out ∧
      out.lookup.length = 256 ∧
      GAuto ⟨out.lookup, out.rows⟩ out.alphabet ts.length d K At ∧
      ((∀ n j, Rk ts n j → heap.tokOf n ≠ some tr.eolToken) → ∀ r u, At r u → getCell out.rows r ixEol = .ok 0) ∧
      DeadAt ⟨out.lookup, out.rows⟩ ts.length K At (fun j => LazyInfo (d j) ∧ ∃ t U S V x0, ts[j]? = some t ∧
        Enc.Parts m heap t U S V x0) ∧
      LiveAt ⟨out.lookup, out.rows⟩ K At (fun j => ∃ t, ts[j]? = some t ∧ Eager.EagerTree heap t) ∧
      (∀ u, u ∈ out.used ↔ u ∈ used ∨ (allow = false ∧ ∃ j w, j < ts.length ∧ K j w ∧
        (∀ i, i < j → ¬ K i w) ∧ ∃ a b c e f g, d j = .fin a b u c e f g)) := by
  have hcr : CrCase tr m crId nlId := by
    rcases hcase with ⟨h1, h2, _⟩ | ⟨h0, _, h1, h2, h3, h4, _⟩
    · exact .inl ⟨h1, h2⟩
    · exact .inr ⟨h0, h1, h2, h3, h4⟩
  obtain ⟨classes, mapping, lk, cr, nl, zid, h1, h2, h3, h4, h5, h6⟩ := prepare_spec tr m hm crId nlId hcr
  let size := classes.length + 7 + (if cr = tr.npos ∧ nl = tr.npos then 0 else 1)
  let E : DfaEnv := ⟨tr, heap, addr, mapping, cr, nl, size, allow⟩
  have hsz1 : classes.length + 7 ≤ size := by show _ ≤ classes.length + 7 + _; omega
  have hsz : size ≤ tr.npos := by
    show classes.length + 7 + (if cr = tr.npos ∧ nl = tr.npos then 0 else 1) ≤ tr.npos
    rcases h2 with ⟨_, _, k1, k2⟩ | ⟨_, k0, _, _⟩
    · rw [if_pos ⟨k1, k2⟩]; omega
    · rcases hcase with ⟨c1, c2, _⟩ | ⟨_, h264, _⟩
      · exact absurd c1 k0
      · split <;> omega
  have hE : EolOk E m ts classes.length := by
    rcases hcase with ⟨_, _, hno⟩ | ⟨_, _, c1, c2, _, _, hK, hone⟩
    · exact EolOk.of_none hno B
    · rcases h2 with ⟨k1, _⟩ | ⟨_, _, k1, k2⟩
      · exact absurd k1 c1
      · exact EolOk.of_words (E := E) B h3 hK k1 k2 hone
  obtain ⟨D0, D, a1, a2, a3, a4, a4', a5, a6⟩ := Bundle.table (E := E) B h3 hsz1 hsz hE hne used lk h6
  refine ⟨⟨lk, size, D.rows, D.used, classes⟩, _, ?_, h5, a6, ?_, ?_, ?_, a5⟩
  · unfold buildDfa
    rw [h1]
    simp only [bind, Except.bind]
    rw [if_neg (show ¬ (classes.length + ixTransitions + (if cr = tr.npos ∧ nl = tr.npos then 0 else 1)) > tr.npos from Nat.not_lt.2 hsz), hroot]
    have a1' : closure ⟨tr, heap, addr, mapping, cr, nl, classes.length + ixTransitions + (if cr = tr.npos ∧ nl = tr.npos then 0 else 1), allow⟩
      ⟨[List.replicate (classes.length + ixTransitions + (if cr = tr.npos ∧ nl = tr.npos then 0 else 1)) 0], [], [], used, []⟩ (starts ts) = .ok (some 1, D0) := a1
    have a2' : buildStates ⟨tr, heap, addr, mapping, cr, nl, classes.length + ixTransitions + (if cr = tr.npos ∧ nl = tr.npos then 0 else 1), allow⟩
      (2 ^ heap.length + 1) 0 D0 = .ok D := a2
    rw [a1']
    simp only
    rw [a2']
    simp only
    have a4'' : D.eolSet.foldlM (fixClash cr nl) D.rows = .ok D.rows := a4'
    cases hcomp : tr.compressed with
    | false => simp only [Bool.false_eq_true, if_false, a4'']; rfl
    | true =>
      rcases hcase with ⟨_, _, hno⟩ | ⟨c0, _, c1, c2, m1, m2, hK, _⟩
      · have hes := a4 hno
        rw [hes]
        simp only [fixClashesComp, if_true]; rfl
      · obtain ⟨z1, _, z2, z3⟩ : (tr.compressed = true → clsRel classes zid 0) ∧ crId ≠ tr.npos ∧ clsRel classes cr 13 ∧
            clsRel classes nl 10 := h2.resolve_left fun h => c1 h.1
        have hlk : ∀ x i, x < 256 → (∃ e ∈ m, Mem x e.1) → clsRel classes i x → lk[x]? = some (7 + i) := by
          rintro x i hx ⟨e, he, hxe⟩ hi
          rcases h6 x hx with ⟨k, k1, k2⟩ | ⟨_, k2⟩
          · rw [k1, h3.disj _ _ _ hi k2]
          · exact absurd hxe (k2 e he)
        obtain ⟨id0, m0⟩ := c0 hcomp
        have hlt : ∀ i x, clsRel classes i x → 7 + i < size := fun i x h => by have := h3.lt _ _ h; omega
        have hid := fixComp_id (tr := tr) a6 hK hcomp size (hlk 13 cr (by omega) ⟨_, m1, show Mem 13 (Token.ofChar 13) from ⟨(13, 13), by decide⟩⟩ z2)
          (hlk 10 nl (by omega) ⟨_, m2, show Mem 10 (Token.ofChar 10) from ⟨(10, 10), by decide⟩⟩ z3)
          (hlk 0 zid (by omega) ⟨_, m0, show Mem 0 (Token.ofRange 0 0) from ⟨(0, 0), by decide⟩⟩ (z1 hcomp))
          (by
            intro c hc
            have hc7 : 7 + c < size := by
              rcases hc with rfl | rfl | rfl
              · exact hlt _ _ z2
              · exact hlt _ _ z3
              · exact hlt _ _ (z1 hcomp)
            rw [show ixTransitions = 7 from rfl, getCell_spec a3.width (by rw [a3.len]; omega) hc7,
              a3.zero 0 _ (.inr (.inl ⟨rfl, by omega⟩))])
          D.eolSet
          (by
            intro r hr
            have hr0 := (a3.eol r).1 hr
            have hpos : r ≠ 0 := fun h => hr0 (a3.zero r _ (.inr (.inl ⟨h, by decide⟩)))
            have hlen : r < D.rows.length := by
              refine Classical.byContradiction fun h => hr0 ?_
              unfold cellOf
              rw [List.getElem?_eq_none (Nat.not_lt.1 h)]
            have hk : r - 1 < D.seen.length := by rw [a3.len] at hlen; omega
            obtain ⟨hQ, _⟩ := a3.q _ (List.getElem_mem hk)
            obtain ⟨u, hu⟩ := hQ.reach
            exact ⟨u, _, ⟨hpos, _, List.getElem?_eq_getElem hk, hu⟩,
              getCell_spec a3.width hlen (by unfold ixEol; show 5 < size; omega), hr0⟩)
          0 (.inl rfl)
        have hid' : fixClashesComp tr.char24 (classes.length + ixTransitions + (if cr = tr.npos ∧ nl = tr.npos then 0 else 1))
          cr nl zid D.eolSet 0 D.rows = .ok D.rows := hid
        simp only [if_true]
        rw [hid']
        rfl
  · rintro hno r u ⟨hr, v, hv, _⟩
    have hes := a4 hno
    have hlt := (List.getElem?_eq_some_iff.1 hv).1
    have hg := getCell_spec a3.width (r := r) (c := ixEol) (by rw [a3.len]; omega) (by unfold ixEol; show 5 < size; omega)
    have hz := a3.eol r
    rw [hes] at hz
    rw [hg]
    have : cellOf D.rows r ixEol = 0 := Classical.byContradiction fun h => by cases hz.2 h
    rw [this]
  · rintro j ⟨hl, t, U, S, V, x0, ht, hp⟩ r u ⟨hr, hat⟩ hk ho
    exact Enc.cut (E := E) B h3 hsz1 hsz hE hne used lk h6 a1 a2 ht hp hl r u hr hat hk ho
  · rintro j ⟨t, ht, hg⟩ r u s c w ⟨hr, hat⟩ hc hk
    exact Eager.live (E := E) B h3 hsz1 hsz hE hne used lk h6 a1 a2 ht hg r u s hr hat c hc w hk

/-- Words matched by rule `j` as the generator sees them. -/
def ruleWords (W : Option Re → List Sym → Prop) (seenBol : Bool) (xs : List DRule) (j : Nat) (w : List Sym) : Prop :=
  ∃ x, xs[j]? = some x ∧ FixBol seenBol (W x.2) w

/-- End node of rule `j`. -/
def ruleInfo (xs : List DRule) (uid j : Nat) : NodeData :=
  match xs[j]? with
  | some x => endNode x (uid + 1 + j)
  | none => .leaf 0 .yes

theorem Forest.get {tr : Traits} {W : Option Re → List Sym → Prop} {seenBol : Bool} {m : CharsetMap} {h : Heap}
    {xs : List DRule} : ∀ {uid : Nat} {ts : List (Tree × Nat)}, Forest tr W seenBol m h uid xs ts →
    ts.length = xs.length ∧ ∀ (j : Nat) (t : Tree × Nat), ts[j]? = some t → ∃ x, xs[j]? = some x ∧
      RuleTree tr m h (seenBol || !rNoBol x.2) (!rNoEol x.2) t.1 t.2 (endNode x (uid + 1 + j))
        (FixBol seenBol (W x.2)) := by
  induction xs with
  | nil =>
    intro uid ts H
    cases ts with
    | nil => exact ⟨rfl, by simp⟩
    | cons => exact H.elim
  | cons x xs ih =>
    intro uid ts H
    cases ts with
    | nil => exact H.elim
    | cons t ts =>
      obtain ⟨h1, h2⟩ := ih H.2
      refine ⟨by simp [h1], fun j t' ht => ?_⟩
      cases j with
      | zero =>
        simp only [List.getElem?_cons_zero, Option.some.injEq] at ht
        subst ht
        exact ⟨x, rfl, H.1⟩
      | succ j =>
        rw [List.getElem?_cons_succ] at ht
        obtain ⟨y, h3, h4⟩ := h2 j t' ht
        exact ⟨y, h3, by rw [show uid + 1 + (j + 1) = uid + 1 + 1 + j from by omega]; exact h4⟩

theorem Forest.bundle {tr : Traits} {W : Option Re → List Sym → Prop} {seenBol : Bool} {m : CharsetMap} {h : Heap}
    {xs : List DRule} {uid : Nat} {ts : List (Tree × Nat)} (H : Forest tr W seenBol m h uid xs ts)
    (hs : ts.Pairwise (fun s t => ∀ a ∈ s.1.pos, ∀ b ∈ t.1.pos, a < b)) (hi : IdsOk tr m)
    (hg : ∀ c ∈ m, GoodTok c.1) :
    Bundle tr m h ts (ruleInfo xs uid) (ruleWords W seenBol xs) := by
  obtain ⟨h1, h2⟩ := H.get
  refine ⟨fun j t ht => ?_, hs, hi, hg⟩
  obtain ⟨x, h3, h4⟩ := h2 j t ht
  refine ⟨seenBol || !rNoBol x.2, !rNoEol x.2, ?_⟩
  have e1 : ruleInfo xs uid j = endNode x (uid + 1 + j) := by unfold ruleInfo; rw [h3]
  have e2 : ruleWords W seenBol xs j = FixBol seenBol (W x.2) := by
    funext w; apply propext
    unfold ruleWords
    rw [h3]
    simp
  rw [e1, e2]
  exact h4

/-- How `$` is used by the rules of one lexer state: not at all, or only at the end of rules and so that
it cannot be confused with line ends matched by the rules themselves. -/
def EolFine (tr : Traits) (W : Option Re → List Sym → Prop) (seenBol : Bool) (xs : List DRule) : Prop :=
  (∀ x ∈ xs, rNoEol x.2 = true) ∨
  ((tr.compressed = true → ∃ x ∈ xs, Adds tr (Token.ofRange 0 0) x.2) ∧ 264 ≤ tr.npos ∧ (∀ x ∈ xs, EolLast tr x.2) ∧
    EolWords tr (ruleWords W seenBol xs))

theorem ruleInfo_lazy {xs : List DRule} {uid j : Nat} :
    LazyInfo (ruleInfo xs uid j) ↔ ∃ x, xs[j]? = some x ∧ rGreedy x.2 = false := by
  unfold LazyInfo ruleInfo
  cases xs[j]? with
  | none => simp
  | some x =>
    simp only [endNode, Option.some.injEq, exists_eq_left']
    cases rGreedy x.2 <;> simp

/-- Rule `j` is an opening text, any characters non-greedily and a closing text; no
compression, and no rule of the lexer state uses `^`. -/
def EncRule (tr : Traits) (seenBol : Bool) (xs : List DRule) (j : Nat) : Prop :=
  tr.compressed = false ∧ seenBol = false ∧ ∃ x r, xs[j]? = some x ∧ x.2 = some r ∧ Enclosed r

/-- Rule `j` goes on by greedy operators only; no compression, and no rule of the lexer state uses `^`. -/
def EagerRule (tr : Traits) (seenBol : Bool) (xs : List DRule) (j : Nat) : Prop :=
  tr.compressed = false ∧ seenBol = false ∧ ∃ x r, xs[j]? = some x ∧ x.2 = some r ∧ r.eager = true

/-- Everything `build` does for one lexer state. -/
theorem buildOne_spec (tr : Traits) (W : Option Re → List Sym → Prop) (cost : Token → Nat) (seenBol allow : Bool)
    (addr : Nat → Nat) (hnpos : 263 ≤ tr.npos) (xs : List DRule) (heap : Heap) (uid : Nat) (used : List Nat)
    (hne : xs ≠ []) (hx : RulesOk tr W cost xs) (hlen : xcost cost xs + 2 ≤ tr.npos)
    (he : EolFine tr W seenBol xs) :
    ∃ (p' : PState) (root' : Tree) (out : DfaOut) (At : Nat → List Sym → Prop) (z : Bool),
      buildTree tr seenBol (xs.map (·.1)) heap uid = .ok (p', root', uid + xs.length) ∧
      anyEnd p'.heap root'.firstpos = .ok z ∧
      (z = true ↔ ∃ j, ruleWords W seenBol xs j []) ∧
      buildDfa tr true allow addr p'.heap p'.charsets p'.crId p'.nlId root' used = .ok out ∧
      out.lookup.length = 256 ∧
      GAuto ⟨out.lookup, out.rows⟩ out.alphabet xs.length (ruleInfo xs uid) (ruleWords W seenBol xs) At ∧
      ((∀ x ∈ xs, rNoEol x.2 = true) → ∀ r u, At r u → getCell out.rows r ixEol = .ok 0) ∧
      DeadAt ⟨out.lookup, out.rows⟩ xs.length (ruleWords W seenBol xs) At (EncRule tr seenBol xs) ∧
      LiveAt ⟨out.lookup, out.rows⟩ (ruleWords W seenBol xs) At (EagerRule tr seenBol xs) ∧
      (∀ u, u ∈ out.used ↔ u ∈ used ∨ (allow = false ∧ ∃ j w, j < xs.length ∧
        ruleWords W seenBol xs j w ∧ (∀ i, i < j → ¬ ruleWords W seenBol xs i w) ∧
        u = uid + 1 + j)) := by
  obtain ⟨p', root', ts, a1, a2, a3, a4, a5, a9, a6, a7, a10, a11, a8⟩ := buildTree_spec tr W cost seenBol
    (by omega) xs heap uid hne hx hlen
  obtain ⟨c1, c2⟩ := a3.inv csInv_nil (by show 0 + _ ≤ _; omega)
  simp only [List.length_nil, Nat.zero_add] at c2
  have hids := c1.idsOk (tr := tr) (by omega) (by omega)
  have hF := a8 p'.charsets hids (fun _ h => h) c1.good
  have B := hF.bundle a7 hids c1.good
  obtain ⟨l1, l2⟩ := hF.get
  have hst : starts ts ≠ [] := by
    cases hts : ts with
    | nil => rw [hts] at l1; cases xs <;> simp_all
    | cons t ts' =>
      obtain ⟨x, _, hr⟩ := l2 0 t (by rw [hts]; rfl)
      have := hr.first_ne
      simp [starts, this]
  have hnoeol : (∀ x ∈ xs, rNoEol x.2 = true) → ∀ n j, Rk ts n j → p'.heap.tokOf n ≠ some tr.eolToken := by
    rintro hno n j ⟨t, ht, hn⟩ h
    obtain ⟨x, hx1, hr⟩ := l2 j t ht
    rw [hno x (List.mem_of_getElem? hx1)] at hr
    rcases hr.toks n (t.1.act_sub n hn) _ h with h | ⟨_, h⟩ | ⟨h, _⟩ | ⟨c, hc, h⟩
    · simp only [Traits.nullToken, Traits.eolToken] at h; omega
    · simp only [Traits.bolToken, Traits.eolToken] at h; omega
    · cases h
    · have := hids.small c hc
      simp only [Traits.eolToken] at h; omega
  have hcase : EolCase tr p'.charsets p'.heap ts (ruleWords W seenBol xs) p'.crId p'.nlId := by
    by_cases hno : ∀ x ∈ xs, rNoEol x.2 = true
    · obtain ⟨cr, nl⟩ := a4 hno
      exact .inl ⟨cr, nl, hnoeol hno⟩
    · rcases he with he | ⟨e1, e2, e3, e4⟩
      · exact absurd he hno
      · obtain ⟨k1, k2⟩ := a9 e3
        have hex : ∃ x ∈ xs, rNoEol x.2 ≠ true := by
          exact Classical.byContradiction fun h => hno fun x hx => Classical.byContradiction fun h' => h ⟨x, hx, h'⟩
        obtain ⟨k3, k4⟩ := k1 hex
        have s1 := hids.small _ k3
        have s2 := hids.small _ k4
        refine .inr ⟨fun hc => ?_, e2, by omega, by omega, k3, k4, e4, k2⟩
        obtain ⟨x, hx1, hx2⟩ := e1 hc
        exact a11 x hx1 _ hx2
  obtain ⟨out, At, b1, b2, b3, b3', b5, b6, b4⟩ := buildDfa_spec tr allow addr p'.heap p'.charsets root' used ts _ _ c1 B
    a5 hst hnpos p'.crId p'.nlId hcase
  obtain ⟨z, z1, z2⟩ := B.anyEnd_iff root'.firstpos fun n hn => Bundle.rk_starts (by rw [← show _ = starts ts from a5]; exact hn)
  refine ⟨p', root', out, At, z, a1, z1, ?_, b1, b2, by rw [← l1]; exact b3, fun hno => b3' (hnoeol hno), ?_, ?_, ?_⟩
  · rw [z2]
    constructor
    · rintro ⟨j, t, h1, h2⟩
      rw [a5] at h2
      exact ⟨j, (B.words h1 []).1 h2⟩
    · rintro ⟨j, h1⟩
      have hj : j < ts.length := by
        obtain ⟨x, hx, _⟩ := h1
        rw [l1]; exact (List.getElem?_eq_some_iff.1 hx).1
      have hg := List.getElem?_eq_getElem hj
      exact ⟨j, _, hg, by rw [a5]; exact (B.words hg []).2 h1⟩
  · rw [← l1]
    rintro j ⟨e1, e2, x, r, e3, e4, e5⟩
    have hj : j < ts.length := by rw [l1]; exact (List.getElem?_eq_some_iff.1 e3).1
    have hg := List.getElem?_eq_getElem hj
    obtain ⟨_, _, R⟩ := B.tree j _ hg
    obtain ⟨U, S, V, x0, hp⟩ := ((a10 e1 e2 j x _ e3 hg r e4).1 e5).parts e5 R.lay.nodup
      fun a ha b hb h => congrArg Prod.fst (hids.inj a ha b hb h)
    exact b5 j ⟨ruleInfo_lazy.2 ⟨x, e3, by rw [e4]; exact Enc.not_greedy e5⟩, _, U, S, V, x0, hg, hp⟩
  · rintro j ⟨e1, e2, x, r, e3, e4, e5⟩
    have hj : j < ts.length := by rw [l1]; exact (List.getElem?_eq_some_iff.1 e3).1
    have hg := List.getElem?_eq_getElem hj
    exact b6 j ⟨_, hg, (a10 e1 e2 j x _ e3 hg r e4).2 e5⟩
  · intro u
    rw [b4, l1]
    refine or_congr Iff.rfl (and_congr Iff.rfl ?_)
    constructor
    · rintro ⟨j, w, h1, h2, h3, a, b, c, e, f, g, h4⟩
      refine ⟨j, w, h1, h2, h3, ?_⟩
      unfold ruleInfo at h4
      rw [List.getElem?_eq_getElem h1] at h4
      simp only [endNode] at h4
      injection h4 with _ _ h5
      exact h5.symm
    · rintro ⟨j, w, h1, h2, h3, rfl⟩
      refine ⟨j, w, h1, h2, h3, ?_⟩
      unfold ruleInfo
      rw [List.getElem?_eq_getElem h1]
      exact ⟨_, _, _, _, _, _, rfl⟩

end Lexertl

namespace Lexertl
open Spec

/-- Messages of the exceptions thrown by `build` (generator.hpp:68, 87-93, 539-582). -/
def msgEmpty : String := "Lexer states with no rules are not allowed"
def msgZero : String := "The following regex can match zero chars"
def msgRows : String := "The id_type you have chosen cannot hold this many DFA rows."
def msgSuppressed : String := "The following regex cannot be matched"

/-- `^` is used somewhere in lexer state `i`. -/
def stateBol (feats : List Nat) (i : Nat) : Bool := hasBit (feats[i]?.getD 0) 1

/-- Rules in the states before state `i`. -/
def ruleOffset (xss : List (List DRule)) (i : Nat) : Nat := ((xss.take i).map List.length).sum

/-- What is assumed of the rules of each lexer state. -/
structure StateOk (tr : Traits) (W : Option Re → List Sym → Prop) (cost : Token → Nat) (xs : List DRule) : Prop where
  ok : RulesOk tr W cost xs
  len : xcost cost xs + 2 ≤ tr.npos
  eol : ∀ b, EolFine tr W b xs

/-- Rule `j` is the earliest rule of the list matching `w`. -/
def Earliest (W : Option Re → List Sym → Prop) (seenBol : Bool) (xs : List DRule) (j : Nat) (w : List Sym) : Prop :=
  j < xs.length ∧ ruleWords W seenBol xs j w ∧ ∀ i, i < j → ¬ ruleWords W seenBol xs i w

theorem buildLoop_spec (tr : Traits) (W : Option Re → List Sym → Prop) (cost : Token → Nat) (addr : Nat → Nat)
    (hnpos : 263 ≤ tr.npos) (R : Rules) (xss : List (List DRule)) :
    ∀ (feats : List Nat) (B : BuildState), (∀ xs ∈ xss, StateOk tr W cost xs) →
    (∃ outs B', buildLoop tr true addr R (xss.map (·.map (·.1))) feats B = .ok B' ∧
      B'.dfas = B.dfas ++ outs ∧ outs.length = xss.length ∧
      B'.uniqueId = B.uniqueId + ruleOffset xss xss.length ∧
      (∀ xs ∈ xss, xs ≠ []) ∧
      (∀ i xs, xss[i]? = some xs → R.matchZeroLen = true ∨
        ¬ ∃ j, ruleWords W (stateBol feats i) xs j []) ∧
      (∀ i xs out, xss[i]? = some xs → outs[i]? = some out → out.rows.length < tr.npos ∧
        out.lookup.length = 256 ∧
        ∃ At, GAuto ⟨out.lookup, out.rows⟩ out.alphabet xs.length
          (ruleInfo xs (B.uniqueId + ruleOffset xss i)) (ruleWords W (stateBol feats i) xs) At ∧
          ((∀ x ∈ xs, rNoEol x.2 = true) → ∀ r u, At r u → getCell out.rows r ixEol = .ok 0) ∧
          DeadAt ⟨out.lookup, out.rows⟩ xs.length (ruleWords W (stateBol feats i) xs) At
            (EncRule tr (stateBol feats i) xs) ∧
          LiveAt ⟨out.lookup, out.rows⟩ (ruleWords W (stateBol feats i) xs) At
            (EagerRule tr (stateBol feats i) xs)) ∧
      (∀ u, u ∈ B'.used ↔ u ∈ B.used ∨ (R.allowSuppressed = false ∧ ∃ i xs j w, xss[i]? = some xs ∧
        Earliest W (stateBol feats i) xs j w ∧ u = B.uniqueId + ruleOffset xss i + 1 + j))) ∨
    (∃ msg, buildLoop tr true addr R (xss.map (·.map (·.1))) feats B = .error (.throw msg) ∧
      ((msg = msgEmpty ∧ ∃ xs ∈ xss, xs = []) ∨
       (msg = msgZero ∧ R.matchZeroLen = false ∧ ∃ i xs j, xss[i]? = some xs ∧
          ruleWords W (stateBol feats i) xs j []) ∨ msg = msgRows)) := by
  induction xss with
  | nil =>
    intro feats B _
    left
    refine ⟨[], B, rfl, by simp, rfl, by simp [ruleOffset], by simp, by simp, by simp, ?_⟩
    intro u; simp
  | cons xs xss ih =>
    intro feats B hok
    by_cases hxs : xs = []
    · right
      refine ⟨msgEmpty, ?_, .inl ⟨rfl, xs, by simp, hxs⟩⟩
      subst hxs
      rfl
    have hx := hok xs (by simp)
    obtain ⟨p', root', out, At, z, a1, a2, a3, a4, a5, a6, a8, a9, a10, a7⟩ := buildOne_spec tr W cost
      (stateBol feats 0) R.allowSuppressed addr hnpos xs B.heap B.uniqueId B.used hxs hx.ok hx.len (hx.eol _)
    have hsb : hasBit (feats.headD 0) 1 = stateBol feats 0 := by
      unfold stateBol; cases feats <;> rfl
    have htail : ∀ i, stateBol feats.tail i = stateBol feats (i + 1) := by
      intro i; unfold stateBol; cases feats <;> simp
    have hstep : buildLoop tr true addr R ((xs :: xss).map (·.map (·.1))) feats B =
        (checkZeroLen R.matchZeroLen p'.heap root' >>= fun _ =>
          if out.rows.length ≥ tr.npos then .error (.throw msgRows)
          else buildLoop tr true addr R (xss.map (·.map (·.1))) feats.tail
            ⟨p'.heap, out.used, B.uniqueId + xs.length, B.dfas ++ [out]⟩) := by
      rw [List.map_cons, buildLoop, if_neg (by simpa using hxs), hsb]
      dsimp only
      rw [a1]
      simp only [bind, Except.bind]
      rw [a4]
      rfl
    rw [hstep]
    have hzero : checkZeroLen R.matchZeroLen p'.heap root' =
        if R.matchZeroLen = false ∧ z = true then .error (.throw msgZero) else .ok () := by
      unfold checkZeroLen
      rw [a2]
      cases R.matchZeroLen <;> cases z <;> rfl
    rw [hzero]
    by_cases hz : R.matchZeroLen = false ∧ z = true
    · rw [if_pos hz]
      right
      refine ⟨msgZero, rfl, .inr (.inl ⟨rfl, hz.1, 0, xs, ?_⟩)⟩
      obtain ⟨j, hj⟩ := a3.1 hz.2
      exact ⟨j, rfl, hj⟩
    rw [if_neg hz]
    simp only [bind, Except.bind]
    by_cases hrows : out.rows.length ≥ tr.npos
    · rw [if_pos hrows]
      right
      exact ⟨msgRows, rfl, .inr (.inr rfl)⟩
    rw [if_neg hrows]
    rcases ih feats.tail ⟨p'.heap, out.used, B.uniqueId + xs.length, B.dfas ++ [out]⟩
      (fun y hy => hok y (by simp [hy])) with
      ⟨outs, B', b1, b2, b3, b4, b5, b6, b7, b8⟩ | ⟨msg, b1, b2⟩
    · left
      have hoff : ∀ i, ruleOffset (xs :: xss) (i + 1) = xs.length + ruleOffset xss i := by
        intro i; simp [ruleOffset]
      refine ⟨out :: outs, B', b1, ?_, by simp [b3], ?_, ?_, ?_, ?_, ?_⟩
      · rw [b2]; simp
      · rw [b4, List.length_cons, hoff]
        show B.uniqueId + xs.length + _ = _
        omega
      · intro y hy
        rcases List.mem_cons.1 hy with rfl | hy
        · exact hxs
        · exact b5 y hy
      · intro i ys hi
        cases i with
        | zero =>
          simp only [List.getElem?_cons_zero, Option.some.injEq] at hi
          subst hi
          cases hmz : R.matchZeroLen with
          | true => exact .inl rfl
          | false =>
            right
            intro hj
            exact hz ⟨hmz, a3.2 hj⟩
        | succ i =>
          rw [List.getElem?_cons_succ] at hi
          have := b6 i ys hi
          rw [htail] at this
          exact this
      · intro i ys o hi ho
        cases i with
        | zero =>
          simp only [List.getElem?_cons_zero, Option.some.injEq] at hi ho
          subst hi; subst ho
          refine ⟨by omega, a5, At, ?_, a8, a9, a10⟩
          simpa [ruleOffset] using a6
        | succ i =>
          rw [List.getElem?_cons_succ] at hi ho
          have := b7 i ys o hi ho
          rw [htail] at this
          rw [hoff, ← Nat.add_assoc]
          exact this
      · intro u
        rw [b8 u]
        simp only
        rw [a7 u]
        constructor
        · rintro ((h | ⟨h1, j, w, h2, h3, h4, h5⟩) | ⟨h1, i, ys, j, w, h2, h3, h4⟩)
          · exact .inl h
          · refine .inr ⟨h1, 0, xs, j, w, rfl, ⟨h2, h3, h4⟩, ?_⟩
            rw [h5]; simp [ruleOffset]
          · refine .inr ⟨h1, i + 1, ys, j, w, h2, by rw [← htail]; exact h3, ?_⟩
            rw [h4, hoff]; omega
        · rintro (h | ⟨h1, i, ys, j, w, h2, h3, h4⟩)
          · exact .inl (.inl h)
          · cases i with
            | zero =>
              simp only [List.getElem?_cons_zero, Option.some.injEq] at h2
              subst h2
              refine .inl (.inr ⟨h1, j, w, h3.1, h3.2.1, h3.2.2, ?_⟩)
              rw [h4]; simp [ruleOffset]
            | succ i =>
              rw [List.getElem?_cons_succ] at h2
              refine .inr ⟨h1, i, ys, j, w, h2, by rw [htail]; exact h3, ?_⟩
              rw [h4, hoff]; omega
    · right
      refine ⟨msg, b1, ?_⟩
      rcases b2 with ⟨h1, ys, h2, h3⟩ | ⟨h1, h2, i, ys, j, h3, h4⟩ | h1
      · exact .inl ⟨h1, ys, by simp [h2], h3⟩
      · exact .inr (.inl ⟨h1, h2, i + 1, ys, j, h3, by rw [← htail]; exact h4⟩)
      · exact .inr (.inr h1)

/-- Numbering the rules of all states. -/
theorem offset_cover (xss : List (List DRule)) : ∀ id, id < ruleOffset xss xss.length →
    ∃ i xs j, xss[i]? = some xs ∧ j < xs.length ∧ id = ruleOffset xss i + j := by
  induction xss with
  | nil => intro id h; simp [ruleOffset] at h
  | cons xs xss ih =>
    intro id h
    have hoff : ∀ i, ruleOffset (xs :: xss) (i + 1) = xs.length + ruleOffset xss i := by
      intro i; simp [ruleOffset]
    rw [List.length_cons, hoff] at h
    by_cases hlt : id < xs.length
    · exact ⟨0, xs, id, rfl, hlt, by simp [ruleOffset]⟩
    · obtain ⟨i, ys, j, h1, h2, h3⟩ := ih (id - xs.length) (by omega)
      exact ⟨i + 1, ys, j, h1, h2, by rw [hoff]; omega⟩

theorem offset_lt (xss : List (List DRule)) : ∀ i xs j, xss[i]? = some xs → j < xs.length →
    ruleOffset xss i + j < ruleOffset xss xss.length := by
  induction xss with
  | nil => intro i xs j h; simp at h
  | cons ys xss ih =>
    have hoff : ∀ i, ruleOffset (ys :: xss) (i + 1) = ys.length + ruleOffset xss i := by
      intro i; simp [ruleOffset]
    intro i xs j h hj
    rw [List.length_cons, hoff]
    cases i with
    | zero =>
      simp only [List.getElem?_cons_zero, Option.some.injEq] at h
      subst h
      simp [ruleOffset]; omega
    | succ i =>
      rw [hoff]
      have := ih i xs j h hj
      omega

theorem offset_inj (xss : List (List DRule)) : ∀ i i' xs xs' j j', xss[i]? = some xs → xss[i']? = some xs' →
    j < xs.length → j' < xs'.length → ruleOffset xss i + j = ruleOffset xss i' + j' → i = i' ∧ j = j' := by
  induction xss with
  | nil => intro i i' xs xs' j j' h; simp at h
  | cons ys xss ih =>
    have hoff : ∀ i, ruleOffset (ys :: xss) (i + 1) = ys.length + ruleOffset xss i := by
      intro i; simp [ruleOffset]
    have h0 : ruleOffset (ys :: xss) 0 = 0 := by simp [ruleOffset]
    intro i i' xs xs' j j' h h' hj hj' he
    cases i with
    | zero =>
      simp only [List.getElem?_cons_zero, Option.some.injEq] at h
      subst h
      cases i' with
      | zero => exact ⟨rfl, by omega⟩
      | succ i' => rw [hoff, h0] at he; omega
    | succ i =>
      cases i' with
      | zero =>
        simp only [List.getElem?_cons_zero, Option.some.injEq] at h'
        subst h'
        rw [hoff, h0] at he; omega
      | succ i' =>
        rw [hoff, hoff] at he
        obtain ⟨h1, h2⟩ := ih i i' xs xs' j j' h h' hj hj' (by omega)
        exact ⟨by omega, h2⟩

/-- Outcome of `build` (before the final swap). -/
theorem buildTemp_spec (tr : Traits) (W : Option Re → List Sym → Prop) (cost : Token → Nat) (addr : Nat → Nat)
    (hnpos : 263 ≤ tr.npos) (R : Rules) (xss : List (List DRule))
    (hR : R.states = xss.map (·.map (·.1))) (hok : ∀ xs ∈ xss, StateOk tr W cost xs) :
    (∃ sm, buildTemp tr addr R = .ok sm ∧ sm.eoi = R.eoi ∧ sm.lookup.length = xss.length ∧
      sm.dfa.length = xss.length ∧
      (∀ xs ∈ xss, xs ≠ []) ∧
      (∀ i xs, xss[i]? = some xs → R.matchZeroLen = true ∨
        ¬ ∃ j, ruleWords W (stateBol R.features i) xs j []) ∧
      (R.allowSuppressed = true ∨ ∀ i xs j, xss[i]? = some xs → j < xs.length →
        ∃ w, Earliest W (stateBol R.features i) xs j w) ∧
      (∀ i xs, xss[i]? = some xs → ∃ d size At, sm.dfaAt i = .ok d ∧ d.lookup.length = 256 ∧
        d.rows.length < tr.npos ∧ GAuto d size xs.length (ruleInfo xs (ruleOffset xss i)) (ruleWords W (stateBol R.features i) xs) At ∧
        ((∀ x ∈ xs, rNoEol x.2 = true) → ∀ r u, At r u → getCell d.rows r ixEol = .ok 0) ∧
        DeadAt d xs.length (ruleWords W (stateBol R.features i) xs) At (EncRule tr (stateBol R.features i) xs) ∧
        LiveAt d (ruleWords W (stateBol R.features i) xs) At (EagerRule tr (stateBol R.features i) xs))) ∨
    (∃ msg, buildTemp tr addr R = .error (.throw msg) ∧
      ((msg = msgEmpty ∧ ∃ xs ∈ xss, xs = []) ∨
       (msg = msgZero ∧ R.matchZeroLen = false ∧ ∃ i xs j, xss[i]? = some xs ∧
          ruleWords W (stateBol R.features i) xs j []) ∨ msg = msgRows ∨
       (msg = msgSuppressed ∧ R.allowSuppressed = false ∧ ∃ i xs j, xss[i]? = some xs ∧ j < xs.length ∧
          ¬ ∃ w, Earliest W (stateBol R.features i) xs j w))) := by
  unfold buildTemp
  rw [hR]
  rcases buildLoop_spec tr W cost addr hnpos R xss R.features ⟨[], [], 0, []⟩ hok with
    ⟨outs, B', b1, b2, b3, b4, b5, b6, b7, b8⟩ | ⟨msg, b1, b2⟩
  · rw [b1]
    simp only [bind, Except.bind]
    simp only [List.nil_append] at b2
    simp only [Nat.zero_add] at b4
    have hchk : ((R.allowSuppressed = true ∨ (∀ i xs j, xss[i]? = some xs → j < xs.length →
          ∃ w, Earliest W (stateBol R.features i) xs j w)) →
          checkSuppressed R.allowSuppressed B'.uniqueId B'.used = .ok ()) ∧
        (¬ (R.allowSuppressed = true ∨ (∀ i xs j, xss[i]? = some xs → j < xs.length →
          ∃ w, Earliest W (stateBol R.features i) xs j w)) →
          checkSuppressed R.allowSuppressed B'.uniqueId B'.used = .error (.throw msgSuppressed)) := by
      unfold checkSuppressed
      cases hal : R.allowSuppressed with
      | true => simp
      | false =>
        simp only [Bool.false_eq_true, if_false, false_or]
        have : ((List.range B'.uniqueId).all (fun id => decide ((id + 1) ∈ B'.used))) = true ↔
            (∀ i xs j, xss[i]? = some xs → j < xs.length →
              ∃ w, Earliest W (stateBol R.features i) xs j w) := by
          simp only [List.all_eq_true, List.mem_range, decide_eq_true_eq, b4]
          constructor
          · intro h i xs j hi hj
            have h1 := h _ (offset_lt xss i xs j hi hj)
            rw [b8] at h1
            rcases h1 with h1 | ⟨_, i', xs', j', w, h2, h3, h4⟩
            · simp at h1
            · simp only [Nat.zero_add] at h4
              obtain ⟨rfl, rfl⟩ := offset_inj xss i i' xs xs' j j' hi h2 hj h3.1 (by omega)
              rw [hi] at h2; cases h2
              exact ⟨w, h3⟩
          · intro h id hid
            obtain ⟨i, xs, j, h1, h2, h3⟩ := offset_cover xss id hid
            obtain ⟨w, hw⟩ := h i xs j h1 h2
            rw [b8]
            exact .inr ⟨hal, i, xs, j, w, h1, hw, by simp only [Nat.zero_add]; omega⟩
        exact ⟨fun hc => by rw [if_pos (this.2 hc)], fun hc => by rw [if_neg (fun h => hc (this.1 h))]; rfl⟩
    by_cases hc : R.allowSuppressed = true ∨ (∀ i xs j, xss[i]? = some xs → j < xs.length →
          ∃ w, Earliest W (stateBol R.features i) xs j w)
    · left
      rw [hchk.1 hc]
      refine ⟨createInternals R B'.dfas, rfl, rfl, ?_, ?_, b5, b6, hc, ?_⟩
      · simp [createInternals, b2, b3]
      · simp [createInternals, b2, b3]
      · intro i xs hi
        have hlt : i < outs.length := by
          rw [b3]; exact (List.getElem?_eq_some_iff.1 hi).1
        obtain ⟨c0, c1, At, c2, c3⟩ := b7 i xs outs[i] hi (List.getElem?_eq_getElem hlt)
        simp only [Nat.zero_add] at c2
        refine ⟨⟨outs[i].lookup, outs[i].rows⟩, outs[i].alphabet, At, ?_, c1, c0, c2, c3⟩
        unfold Internals.dfaAt createInternals
        simp only [List.getElem?_map, b2, List.getElem?_eq_getElem hlt, Option.map_some]
    · right
      rw [hchk.2 hc]
      refine ⟨msgSuppressed, rfl, .inr (.inr (.inr ⟨rfl, ?_, ?_⟩))⟩
      · cases h : R.allowSuppressed with
        | false => rfl
        | true => exact absurd (.inl h) hc
      · exact Classical.byContradiction fun hn => hc (.inr fun i xs j h1 h2 =>
          Classical.byContradiction fun h3 => hn ⟨i, xs, j, h1, h2, h3⟩)
  · right
    rw [b1]
    refine ⟨msg, rfl, ?_⟩
    rcases b2 with h | h | h
    · exact .inl h
    · exact .inr (.inl h)
    · exact .inr (.inr (.inl h))

end Lexertl
