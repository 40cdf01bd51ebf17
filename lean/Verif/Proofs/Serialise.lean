import Verif.Spec.Serialise

/- Proofs about `save` and `load`. -/
namespace Lexertl.Serialise
open Lexertl Spec

/-! ### Numbers -/

theorem digits_ne : ∀ f n, n < f → digits f n ≠ []
  | 0, _, h => by omega
  | f + 1, n, _ => by unfold digits; split <;> simp

theorem digits_all : ∀ f n, ∀ d ∈ digits f n, isDec d = true
  | 0, _, d, h => by simp [digits] at h
  | f + 1, n, d, h => by
    unfold digits at h
    split at h
    · simp only [List.mem_singleton] at h
      subst h
      simp only [isDec, Bool.and_eq_true, decide_eq_true_eq]; omega
    · rcases List.mem_append.1 h with h | h
      · exact digits_all f _ d h
      · simp only [List.mem_singleton] at h
        subst h
        simp only [isDec, Bool.and_eq_true, decide_eq_true_eq]; omega

theorem ofDigits_snoc (ds : List Nat) (d : Nat) : ofDigits (ds ++ [d]) = ofDigits ds * 10 + (d - 48) := by
  unfold ofDigits
  rw [List.foldl_append]
  rfl

theorem ofDigits_digits : ∀ f n, n < f → ofDigits (digits f n) = n
  | 0, _, h => by omega
  | f + 1, n, h => by
    unfold digits
    split
    · have := ofDigits_snoc [] (48 + n)
      rw [List.nil_append] at this
      rw [this]
      show 0 * 10 + _ = _
      omega
    · rw [ofDigits_snoc, ofDigits_digits f (n / 10) (by omega)]; omega

theorem decimal_ne (n : Nat) : decimal n ≠ [] := digits_ne _ _ (by omega)
theorem decimal_all (n : Nat) : ∀ d ∈ decimal n, isDec d = true := digits_all _ _
theorem ofDigits_decimal (n : Nat) : ofDigits (decimal n) = n := ofDigits_digits _ _ (by omega)

theorem takeWhile_all {p : Nat → Bool} : ∀ (a : List Nat) {c : Nat} {t : List Nat}, (∀ x ∈ a, p x = true) → p c = false →
    (a ++ c :: t).takeWhile p = a ∧ (a ++ c :: t).dropWhile p = c :: t
  | [], c, t, _, hc => by simp [List.takeWhile_cons, List.dropWhile_cons, hc]
  | x :: a, c, t, h, hc => by
    obtain ⟨h1, h2⟩ := takeWhile_all a (c := c) (t := t) (fun y hy => h y (by simp [hy])) hc
    rw [List.cons_append, List.takeWhile_cons, List.dropWhile_cons, if_pos (h x (by simp)), if_pos (h x (by simp)), h1, h2]
    exact ⟨rfl, rfl⟩

/-- Reading back a number written in decimal. -/
theorem readNum_decimal {max n : Nat} (hn : n ≤ max) {ws : List Nat} (hws : ∀ c ∈ ws, isSpace c = true) {c : Nat} (hc : isDec c = false)
    (t : List Nat) (old : Nat) : readNum max ⟨ws ++ (decimal n ++ c :: t), false⟩ old = (n, ⟨c :: t, false⟩) := by
  obtain ⟨d, ds, e⟩ := List.exists_cons_of_ne_nil (decimal_ne n)
  have hd : isDec d = true := decimal_all n d (by simp [e])
  have hsp : isSpace d = false := by
    simp only [isDec, Bool.and_eq_true, decide_eq_true_eq] at hd
    simp only [isSpace, Bool.or_eq_false_iff, beq_eq_false_iff_ne, Bool.and_eq_false_iff, decide_eq_false_iff_not]
    omega
  have h1 : (ws ++ (decimal n ++ c :: t)).dropWhile isSpace = d :: (ds ++ c :: t) := by
    rw [e, List.cons_append]
    exact (takeWhile_all ws hws hsp).2
  obtain ⟨h2, h3⟩ := takeWhile_all (decimal n) (c := c) (t := t) (decimal_all n) hc
  rw [e, List.cons_append] at h2 h3
  unfold readNum
  rw [if_neg (by simp), h1]
  simp only [isDec, Bool.and_eq_true, decide_eq_true_eq] at hd
  simp only
  rw [if_neg (by omega), if_neg (by omega)]
  unfold readDigits
  rw [h2, h3, ← e]
  simp only
  rw [if_neg (decimal_ne n), ofDigits_decimal, if_neg (by omega)]
  simp

theorem readId_decimal {w n : Nat} (hw : w ≠ 1) (hn : n ≤ idMax w) {ws : List Nat} (hws : ∀ c ∈ ws, isSpace c = true) {c : Nat} (hc : isDec c = false)
    (t : List Nat) (old : Nat) : readId w ⟨ws ++ (writeId w n ++ c :: t), false⟩ old = (n, ⟨c :: t, false⟩) := by
  unfold readId writeId
  rw [if_neg hw, if_neg hw]
  exact readNum_decimal hn hws hc t old

/-! ### Vectors -/

theorem inputLoop_eq {w : Nat} (hw : w ≠ 1) (hw8 : w ≤ 8) : ∀ (xs : List Nat) (len : Nat) (ws : List Nat) (t : List Nat), (∀ x ∈ xs, x ≤ idMax w) →
    (∀ c ∈ ws, isSpace c = true) → ∃ ws', (∀ c ∈ ws', isSpace c = true) ∧
      inputLoop w xs.length ⟨ws ++ (outputLoop w len xs ++ t), false⟩ = (xs, ⟨ws' ++ t, false⟩)
  | [], len, ws, t, _, hws => ⟨ws, hws, by simp [inputLoop, outputLoop]⟩
  | x :: xs, len, ws, t, h, hws => by
    have hx := h x (by simp)
    have hs : idMax w ≤ sizeMax := by
      unfold idMax sizeMax
      have : 256 ^ w ≤ 256 ^ 8 := Nat.pow_le_pow_right (by omega) hw8
      omega
    have hid : x % (idMax w + 1) = x := Nat.mod_eq_of_lt (by omega)
    unfold outputLoop
    simp only [List.length_cons, inputLoop]
    have e : writeId w x = decimal x := by unfold writeId; rw [if_neg hw]
    rw [e]
    have h32 : ∀ c ∈ [32], isSpace c = true := by simp [isSpace]
    split
    · obtain ⟨ws', h1, h2⟩ := inputLoop_eq hw hw8 xs ((decimal x).length + 1) [32] t (fun y hy => h y (by simp [hy])) h32
      refine ⟨ws', h1, ?_⟩
      have := readNum_decimal (max := sizeMax) (n := x) (by omega) (ws := ws ++ [10]) (by
        intro c hc
        rcases List.mem_append.1 hc with hc | hc
        · exact hws c hc
        · simp only [List.mem_singleton] at hc; subst hc; rfl) (c := 32) rfl (outputLoop w ((decimal x).length + 1) xs ++ t) 0
      simp only [List.append_assoc, List.cons_append, List.nil_append] at this h2 ⊢
      rw [this]
      simp only
      rw [h2, hid]
    · obtain ⟨ws', h1, h2⟩ := inputLoop_eq hw hw8 xs (len + (decimal x).length + 1) [32] t (fun y hy => h y (by simp [hy])) h32
      refine ⟨ws', h1, ?_⟩
      have := readNum_decimal (max := sizeMax) (n := x) (by omega) hws (c := 32) rfl (outputLoop w (len + (decimal x).length + 1) xs ++ t) 0
      simp only [List.append_assoc, List.cons_append, List.nil_append] at this h2 ⊢
      rw [this]
      simp only
      rw [h2, hid]

theorem inputVec_eq {w : Nat} (hw : w ≠ 1) (hw8 : w ≤ 8) {xs : List Nat} (h : ∀ x ∈ xs, x ≤ idMax w) (hl : xs.length ≤ sizeMax)
    {ws : List Nat} (hws : ∀ c ∈ ws, isSpace c = true) (t : List Nat) :
    ∃ ws', (∀ c ∈ ws', isSpace c = true) ∧ inputVec w ⟨ws ++ (outputVec w xs ++ t), false⟩ = (xs, ⟨ws' ++ 10 :: t, false⟩) := by
  obtain ⟨ws', h1, h2⟩ := inputLoop_eq hw hw8 xs 0 [10] (10 :: t) h (by simp [isSpace])
  refine ⟨ws', h1, ?_⟩
  unfold inputVec outputVec
  have := readNum_decimal hl hws (c := 10) rfl (outputLoop w 0 xs ++ 10 :: t) 0
  simp only [List.append_assoc, List.cons_append, List.nil_append] at this h2 ⊢
  rw [this]
  exact h2

theorem snoc_space {ws : List Nat} (h : ∀ c ∈ ws, isSpace c = true) : ∀ c ∈ ws ++ [10], isSpace c = true := by
  intro c hc
  rcases List.mem_append.1 hc with hc | hc
  · exact h c hc
  · simp only [List.mem_singleton] at hc; subst hc; rfl

theorem inputVecs_eq {w : Nat} (hw : w ≠ 1) (hw8 : w ≤ 8) : ∀ (vs : List (List Nat)) (ws : List Nat) (t : List Nat),
    (∀ v ∈ vs, v.length ≤ sizeMax ∧ ∀ x ∈ v, x ≤ idMax w) → (∀ c ∈ ws, isSpace c = true) →
    ∃ ws', (∀ c ∈ ws', isSpace c = true) ∧ inputVecs w vs.length ⟨ws ++ (vs.flatMap (outputVec w) ++ t), false⟩ = (vs, ⟨ws' ++ t, false⟩)
  | [], ws, t, _, hws => ⟨ws, hws, by simp [inputVecs]⟩
  | v :: vs, ws, t, h, hws => by
    have hv := h v (by simp)
    obtain ⟨ws1, h1, h2⟩ := inputVec_eq hw hw8 hv.2 hv.1 hws (vs.flatMap (outputVec w) ++ t)
    obtain ⟨ws2, h3, h4⟩ := inputVecs_eq hw hw8 vs (ws1 ++ [10]) t (fun y hy => h y (by simp [hy])) (snoc_space h1)
    refine ⟨ws2, h3, ?_⟩
    simp only [List.length_cons, inputVecs, List.flatMap_cons, List.append_assoc, List.cons_append, List.nil_append] at h2 h4 ⊢
    rw [h2]
    simp only
    rw [h4]

/-! ### Machines -/

theorem loadBody_eq {w : Nat} (hw : w ≠ 1) (hw8 : w ≤ 8) {m : Raw} (hm : Fits w m) (num : Nat) (t : List Nat) :
    ∃ ws', (∀ c ∈ ws', isSpace c = true) ∧ loadBody w num ⟨10 :: (writeId w m.eoi ++ 10 ::
      (decimal m.lookup.length ++ 10 :: (m.lookup.flatMap (outputVec w) ++ (outputVec w m.alphabet ++
      (writeId w m.features ++ 10 :: (decimal m.dfa.length ++ 10 :: (m.dfa.flatMap (outputVec w) ++ t))))))), false⟩ =
      (m, ⟨ws' ++ t, false⟩) := by
  have h10 : ∀ c ∈ [10], isSpace c = true := by simp [isSpace]
  have e1 := readId_decimal hw hm.eoi h10 (c := 10) rfl
    (decimal m.lookup.length ++ 10 :: (m.lookup.flatMap (outputVec w) ++ (outputVec w m.alphabet ++
      (writeId w m.features ++ 10 :: (decimal m.dfa.length ++ 10 :: (m.dfa.flatMap (outputVec w) ++ t)))))) 0
  have e2 := readNum_decimal hm.lookups h10 (c := 10) rfl (m.lookup.flatMap (outputVec w) ++ (outputVec w m.alphabet ++
      (writeId w m.features ++ 10 :: (decimal m.dfa.length ++ 10 :: (m.dfa.flatMap (outputVec w) ++ t))))) num
  obtain ⟨w1, g1, e3⟩ := inputVecs_eq hw hw8 m.lookup [10] (outputVec w m.alphabet ++
      (writeId w m.features ++ 10 :: (decimal m.dfa.length ++ 10 :: (m.dfa.flatMap (outputVec w) ++ t)))) hm.lookup h10
  obtain ⟨w2, g2, e4⟩ := inputVec_eq hw hw8 hm.alphabet.2 hm.alphabet.1 g1
    (writeId w m.features ++ 10 :: (decimal m.dfa.length ++ 10 :: (m.dfa.flatMap (outputVec w) ++ t)))
  have e5 := readId_decimal hw hm.features (snoc_space g2) (c := 10) rfl (decimal m.dfa.length ++ 10 :: (m.dfa.flatMap (outputVec w) ++ t)) 0
  have e6 := readNum_decimal hm.dfas h10 (c := 10) rfl (m.dfa.flatMap (outputVec w) ++ t) m.lookup.length
  obtain ⟨w3, g3, e7⟩ := inputVecs_eq hw hw8 m.dfa [10] t hm.dfa h10
  refine ⟨w3, g3, ?_⟩
  simp only [List.append_assoc, List.cons_append, List.nil_append] at e1 e2 e3 e4 e5 e6 e7
  unfold loadBody
  rw [e1]; dsimp only
  rw [e2]; dsimp only
  rw [e3]; dsimp only
  rw [e4]; dsimp only
  rw [e5]; dsimp only
  rw [e6]; dsimp only
  rw [e7]

/-- The header. -/
theorem load_header {cw w cw' w' : Nat} (hcw : cw ≤ sizeMax) (hw : w ≤ sizeMax) (m old : Raw) {ws : List Nat} (hws : ∀ c ∈ ws, isSpace c = true)
    (t : List Nat) : ∃ body, save cw w m = decimal 1 ++ 10 :: (decimal cw ++ 10 :: (decimal w ++ 10 :: body)) ∧
    load cw' w' ⟨ws ++ (save cw w m ++ t), false⟩ old =
      if cw ≠ cw' then (Raw.cleared, ⟨10 :: (decimal w ++ 10 :: (body ++ t)), false⟩, .error (.throw "char_type mismatch in lexertl::load()."))
      else if w ≠ w' then (Raw.cleared, ⟨10 :: (body ++ t), false⟩, .error (.throw "id_type mismatch in lexertl::load()."))
      else ((loadBody w' w ⟨10 :: (body ++ t), false⟩).1, (loadBody w' w ⟨10 :: (body ++ t), false⟩).2, .ok ()) := by
  have h10 : ∀ c ∈ [10], isSpace c = true := by simp [isSpace]
  refine ⟨_, rfl, ?_⟩
  unfold save
  generalize (writeId w m.eoi ++ 10 ::
    (decimal m.lookup.length ++ 10 :: (m.lookup.flatMap (outputVec w) ++ (outputVec w m.alphabet ++
      (writeId w m.features ++ 10 :: (decimal m.dfa.length ++ 10 :: m.dfa.flatMap (outputVec w))))))) = body
  have e1 := readNum_decimal (max := sizeMax) (n := 1) (by decide) hws (c := 10) rfl (decimal cw ++ 10 :: (decimal w ++ 10 :: (body ++ t))) 0
  have e2 := readNum_decimal hcw h10 (c := 10) rfl (decimal w ++ 10 :: (body ++ t)) 1
  have e3 := readNum_decimal hw h10 (c := 10) rfl (body ++ t) cw
  unfold load
  simp only [List.append_assoc, List.cons_append, List.nil_append] at e1 e2 e3 ⊢
  rw [e1]; dsimp only
  rw [e2]; dsimp only
  rw [e3]

theorem load_save {cw w : Nat} (hcw : cw ≤ sizeMax) (hw : 2 ≤ w) (hw8 : w ≤ 8) {m : Raw} (hm : Fits w m) (old : Raw) {ws : List Nat}
    (hws : ∀ c ∈ ws, isSpace c = true) (t : List Nat) : ∃ ws', (∀ c ∈ ws', isSpace c = true) ∧
    load cw w ⟨ws ++ (save cw w m ++ t), false⟩ old = (m, ⟨ws' ++ t, false⟩, .ok ()) := by
  obtain ⟨body, h1, h2⟩ := load_header (w := w) (cw' := cw) (w' := w) hcw (by unfold sizeMax; omega) m old hws t
  rw [if_neg (by simp), if_neg (by simp)] at h2
  obtain ⟨ws', h3, h4⟩ := loadBody_eq (by omega) hw8 hm w t
  refine ⟨ws', h3, ?_⟩
  have hb : body = (writeId w m.eoi ++ 10 ::
    (decimal m.lookup.length ++ 10 :: (m.lookup.flatMap (outputVec w) ++ (outputVec w m.alphabet ++
      (writeId w m.features ++ 10 :: (decimal m.dfa.length ++ 10 :: m.dfa.flatMap (outputVec w))))))) := by
    unfold save at h1
    have := List.append_cancel_left h1
    simp only [List.cons.injEq, true_and] at this
    have := List.append_cancel_left this
    simp only [List.cons.injEq, true_and] at this
    have := List.append_cancel_left this
    simp only [List.cons.injEq, true_and] at this
    exact this.symm
  rw [h2, hb]
  simp only [List.append_assoc, List.cons_append, List.nil_append] at h4 ⊢
  rw [h4]

/-! ### Rows -/

theorem chunks_flatten {a : Nat} (ha : 0 < a) : ∀ (rows : List Row) (n : Nat), (∀ r ∈ rows, r.length = a) → rows.length ≤ n →
    chunks a n rows.flatten = rows
  | [], n, _, _ => by cases n <;> simp [chunks]
  | r :: rows, 0, _, h => by simp at h
  | r :: rows, n + 1, h, hn => by
    have hr := h r (by simp)
    have hne : r ≠ [] := by intro e; rw [e] at hr; simp at hr; omega
    unfold chunks
    rw [List.flatten_cons, if_neg (by simp [hne]), ← hr, List.take_left' rfl, List.drop_left' rfl, hr,
      chunks_flatten ha rows n (fun x hx => h x (by simp [hx])) (by simpa using hn)]

theorem flatten_len {a : Nat} (ha : 0 < a) : ∀ (rows : List Row), (∀ r ∈ rows, r.length = a) → rows.length ≤ rows.flatten.length
  | [], _ => by simp
  | r :: rows, h => by
    have := flatten_len ha rows fun x hx => h x (by simp [hx])
    have hr := h r (by simp)
    simp only [List.length_cons, List.flatten_cons, List.length_append]
    omega

theorem rows_flat {sm : Internals} (h : Widths sm) : sm.flat.rows = sm := by
  have : List.zipWith (fun a xs => chunks a xs.length xs) sm.alphabet (sm.dfa.map List.flatten) = sm.dfa := by
    apply List.ext_getElem?
    intro i
    rw [List.getElem?_zipWith, List.getElem?_map]
    cases ha : sm.alphabet[i]? with
    | none =>
      have : sm.dfa[i]? = none := by
        rw [List.getElem?_eq_none_iff] at ha ⊢
        rw [← h.1]; exact ha
      rw [this]
    | some a =>
      cases hd : sm.dfa[i]? with
      | none => rfl
      | some rows =>
        obtain ⟨h1, h2⟩ := h.2 i a rows ha hd
        simp only [Option.map_some]
        rcases h1 with h1 | h1
        · subst h1; simp [chunks]
        · rw [chunks_flatten h1 rows _ h2 (flatten_len h1 rows h2)]
  unfold Internals.flat Raw.rows
  simp only
  rw [this]

end Lexertl.Serialise
