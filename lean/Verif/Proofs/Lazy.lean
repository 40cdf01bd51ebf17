import Verif.Spec.Lazy
import Verif.Proofs.Program

/-
Rules with non-greedy operators that are not last: nothing is pruned, and the rule is split
into its alternatives.
-/
namespace Lexertl.Lazy
open Spec Reading

/-! ### Nothing is pruned -/

theorem endBlock_length : ∀ (k : Nat) (ts : List Tok), (endBlock k ts).length ≤ ts.length
  | k, [] => by simp [endBlock]
  | k, t :: ts => by
    unfold endBlock
    have h := fun k => endBlock_length k ts
    split
    · split
      · exact Nat.le_refl _
      · have := h k; simp; omega
    · have := h (k + 1); simp; omega
    · split
      · exact Nat.le_refl _
      · have := h (k - 1); simp; omega
    · exact Nat.le_refl _
    · have := h k; simp; omega

theorem Ends.or {t : Tok} {B : List Tok} (h : Ends (t :: B)) (ht : t.type = .or_) : Ends (endBlock 0 B.tail) := by
  obtain ⟨n, h1, h2⟩ := h
  cases n with
  | zero => simp at h1
  | succ n =>
    simp only [List.length_cons] at h1
    unfold isEnd at h2
    rw [ht] at h2
    have := endBlock_length 0 B.tail
    have : B.tail.length ≤ B.length := by simp
    exact ⟨n, by omega, h2⟩

theorem endBlock_inside (c : Tok) (rest : List Tok) (hc : c.type = .closeparen) : ∀ (v : List Tok) (d k : Nat), pdepth d v = some 0 → k ≤ d →
    (∀ t ∈ v, t.type ≠ .end_) → ∃ a v' d', v = a ++ v' ∧ endBlock k (v ++ c :: rest) = v' ++ c :: rest ∧ pdepth d' v' = some 0
  | [], d, k, h, hk, _ => by
    simp only [pdepth, Option.some.injEq] at h
    have : k = 0 := by omega
    subst this
    exact ⟨[], [], 0, rfl, by simp [endBlock, hc], rfl⟩
  | t :: v, d, k, h, hk, hn => by
    have ih := endBlock_inside c rest hc v
    have hn' : ∀ t ∈ v, t.type ≠ .end_ := fun t ht => hn t (by simp [ht])
    have he := hn t (by simp)
    have lift : ∀ {d k : Nat}, pdepth d v = some 0 → k ≤ d → ∃ a v' d', t :: v = a ++ v' ∧ endBlock k (v ++ c :: rest) = v' ++ c :: rest ∧
        pdepth d' v' = some 0 := by
      intro d k h1 h2
      obtain ⟨a, v', d', e1, e2, e3⟩ := ih d k h1 h2 hn'
      exact ⟨t :: a, v', d', by rw [e1]; rfl, e2, e3⟩
    have here : ∃ a v' d', t :: v = a ++ v' ∧ t :: v ++ c :: rest = v' ++ c :: rest ∧ pdepth d' v' = some 0 := ⟨[], t :: v, d, rfl, rfl, h⟩
    simp only [List.cons_append, endBlock]
    unfold pdepth at h
    split
    · rename_i ht
      rw [ht] at h
      split
      · exact here
      · exact lift h hk
    · rename_i ht
      rw [ht] at h
      exact lift h (by omega)
    · rename_i ht
      simp only [ht] at h
      split
      · exact here
      · split at h
        · cases h
        · exact lift h (by omega)
    · rename_i ht
      exact absurd ht he
    · split at h
      · simp_all
      · simp_all
      · exact lift h hk

/-- What follows a closing parenthesis is looked at if the end of the parentheses is
reached. -/
theorem ends_close (c : Tok) (rest : List Tok) (hc : c.type = .closeparen) : ∀ (n : Nat) (b : List Tok) (d : Nat), b.length ≤ n → pdepth d b = some 0 →
    (∀ t ∈ b, t.type ≠ .end_) → (∀ t, b.getLast? = some t → t.type ≠ .or_) → Ends (b ++ c :: rest) → Ends rest
  | n, [], d, _, _, _, _, h => h.close hc
  | 0, t :: b, d, hl, _, _, _, h => by simp at hl
  | n + 1, t :: b, d, hl, hd, hn, ho, h => by
    have hb : ∀ t ∈ b, t.type ≠ .end_ := fun t ht => hn t (by simp [ht])
    have hl' : b.length ≤ n := by simpa using hl
    rcases h.head with ht | ht | ht
    · have h1 := Ends.or h ht
      cases b with
      | nil => exact absurd ht (ho t rfl)
      | cons x b =>
        have h1 : Ends (endBlock 0 (b ++ c :: rest)) := h1
        unfold pdepth at hd
        rw [ht] at hd
        have hd : pdepth d (x :: b) = some 0 := hd
        have hx : ∃ d', pdepth d' b = some 0 := by
          unfold pdepth at hd
          split at hd
          · exact ⟨_, hd⟩
          · split at hd
            · cases hd
            · exact ⟨_, hd⟩
          · exact ⟨_, hd⟩
        obtain ⟨d', hx⟩ := hx
        obtain ⟨a, v', d'', e1, e2, e3⟩ := endBlock_inside c rest hc b d' 0 hx (by omega) (fun t ht => hb t (by simp [ht]))
        rw [e2] at h1
        refine ends_close c rest hc n v' d'' ?_ e3 (fun t ht => hb t (by rw [e1]; simp [ht])) ?_ h1
        · simp only [List.length_cons] at hl'
          rw [e1, List.length_append] at hl'
          omega
        · intro t ht
          refine ho t ?_
          rw [e1, ← List.cons_append, ← List.cons_append, List.getLast?_append, ht]
          rfl
    · unfold pdepth at hd
      rw [ht] at hd
      simp only at hd
      split at hd
      · cases hd
      · refine ends_close c rest hc n b _ hl' hd hb ?_ (h.close ht)
        intro t' ht'
        refine ho t' ?_
        rw [List.getLast?_cons, ht']
        rfl
    · exact absurd ht (hn t (by simp))

theorem postfix_type {d : Tok} {r q : Re} (h : Postfix d r q) :
    d.type ≠ .end_ ∧ d.type ≠ .or_ ∧ d.type ≠ .closeparen ∧ d.type ≠ .openparen ∧ (isLazy d.type = true → q.endsLazy = true) := by
  cases h <;> simp [isLazy, Re.endsLazy]

theorem derives_types {l : Level} {ts : List Tok} {r : Re} (h : Derives l ts r) : ∀ t ∈ ts, t.type ≠ .end_ ∧ t.type ≠ .begin := by
  induction h with
  | charset | bol | eol => simp
  | paren o c ts r ho hc _ ih =>
    intro t ht
    simp only [List.cons_append, List.mem_cons, List.mem_append, List.not_mem_nil, or_false] at ht
    rcases ht with rfl | ht | rfl
    · simp [ho]
    · exact ih t ht
    · simp [hc]
  | item ts r _ ih => exact ih
  | postfix_ ts r d q _ hp ih =>
    intro t ht
    simp only [List.mem_append, List.mem_cons, List.not_mem_nil, or_false] at ht
    rcases ht with ht | rfl
    · exact ih t ht
    · cases hp <;> simp
  | seq1 ts r _ ih => exact ih
  | seq ts us l r _ _ ih1 ih2 =>
    intro t ht
    rcases List.mem_append.1 ht with ht | ht
    · exact ih1 t ht
    · exact ih2 t ht
  | alt1 ts r _ ih => exact ih
  | alt ts us o l r ho _ _ ih1 ih2 =>
    intro t ht
    simp only [List.mem_append, List.mem_cons] at ht
    rcases ht with ht | rfl | ht
    · exact ih1 t ht
    · simp [ho]
    · exact ih2 t ht

theorem derives_front {l : Level} {ts : List Tok} {r : Re} (h : Derives l ts r) : ∃ t us, ts = t :: us ∧
    t.type ≠ .or_ ∧ t.type ≠ .closeparen ∧ t.type ≠ .end_ := by
  induction h with
  | charset | bol | eol => exact ⟨_, _, rfl, by simp, by simp, by simp⟩
  | paren o c ts r ho hc _ ih => exact ⟨_, _, rfl, by simp [ho]⟩
  | item ts r _ ih => exact ih
  | postfix_ ts r d q _ hp ih =>
    obtain ⟨t, us, rfl, h⟩ := ih
    exact ⟨t, _, rfl, h⟩
  | seq1 ts r _ ih => exact ih
  | seq ts us l r _ _ ih1 ih2 =>
    obtain ⟨t, us, rfl, h⟩ := ih1
    exact ⟨t, _, rfl, h⟩
  | alt1 ts r _ ih => exact ih
  | alt ts us o l r ho _ _ ih1 ih2 =>
    obtain ⟨t, us, rfl, h⟩ := ih1
    exact ⟨t, _, rfl, h⟩

theorem pdepth_suffix {a b : List Tok} (h : pdepth 0 (a ++ b) = some 0) : ∃ d, pdepth d b = some 0 := by
  rw [pdepth_append] at h
  cases ha : pdepth 0 a with
  | none => rw [ha] at h; cases h
  | some d => rw [ha] at h; exact ⟨d, h⟩

/-- Leaving parentheses. -/
theorem derives_close {l : Level} {ts : List Tok} {r : Re} (h : Derives l ts r) {a b : List Tok} {d : Tok} (e : ts = a ++ d :: b)
    {c : Tok} {rest : List Tok} (hc : c.type = .closeparen) (he : Ends (b ++ c :: rest)) : Ends rest := by
  have h1 := derives_pdepth h 0
  rw [e, show a ++ d :: b = (a ++ [d]) ++ b by simp] at h1
  obtain ⟨k, hk⟩ := pdepth_suffix h1
  refine ends_close c rest hc b.length b k (Nat.le_refl _) hk (fun t ht => (derives_types h t (by rw [e]; simp [ht])).1) ?_ he
  intro t ht
  obtain ⟨us, z, hz, hz'⟩ := derives_last h
  rw [e] at hz
  have : (a ++ d :: b).getLast? = some t := by
    rw [List.getLast?_append, List.getLast?_cons, ht]
    rfl
  rw [hz, List.getLast?_concat] at this
  injection this with this
  subst this
  intro ho
  cases l <;> simp [EndTy, ho, isPostfix] at hz'

theorem split_mid {α : Type} {p q a b : List α} {d : α} (h : p ++ q = a ++ d :: b) : (∃ b', p = a ++ d :: b' ∧ b = b' ++ q) ∨ (∃ a', q = a' ++ d :: b ∧ a = p ++ a') := by
  rw [List.append_eq_append_iff] at h
  rcases h with ⟨a', h1, h2⟩ | ⟨c, h1, h2⟩
  · exact .inr ⟨a', h2, h1⟩
  · cases c with
    | nil => exact .inr ⟨[], by simpa using h2.symm, by simpa using h1.symm⟩
    | cons x c =>
      simp only [List.cons_append, List.cons.injEq] at h2
      obtain ⟨rfl, rfl⟩ := h2
      exact .inl ⟨c, h1, rfl⟩

theorem not_ends {l : Level} {ts : List Tok} {r : Re} (h : Derives l ts r) : ∀ a d b, ts = a ++ d :: b → isLazy d.type = true →
    (l ≠ .alt → ∀ rest, Ends (b ++ rest) → Ends rest) ∧ (r.endsLazy = false → ∀ rest, ¬ Ends (b ++ rest)) := by
  have single : ∀ {t d : Tok} {a b : List Tok}, [t] = a ++ d :: b → t = d := by
    intro t d a b e
    cases a with
    | nil => injection e
    | cons x a => simp at e
  have lazy_ty : ∀ {d : Tok}, isLazy d.type = true → d.type ≠ .or_ ∧ d.type ≠ .openparen ∧ d.type ≠ .closeparen ∧ d.type ≠ .charset ∧
      d.type ≠ .bol ∧ d.type ≠ .eol := by
    intro d h
    cases hd : d.type <;> simp_all [isLazy]
  induction h with
  | charset => intro a d b e hd; rw [← single e] at hd; simp [isLazy] at hd
  | bol => intro a d b e hd; rw [← single e] at hd; simp [isLazy] at hd
  | eol => intro a d b e hd; rw [← single e] at hd; simp [isLazy] at hd
  | paren o c ts r ho hc h ih =>
    intro a d b e hd
    have hl := lazy_ty hd
    have : ∃ a' b', ts = a' ++ d :: b' ∧ b = b' ++ [c] := by
      rcases split_mid (p := o :: ts) (q := [c]) e with ⟨b', h1, h2⟩ | ⟨a', h1, _⟩
      · cases a with
        | nil => simp only [List.nil_append, List.cons.injEq] at h1; rw [← h1.1] at hl; simp [ho] at hl
        | cons x a =>
          simp only [List.cons_append, List.cons.injEq] at h1
          exact ⟨a, b', h1.2, h2⟩
      · rw [← single h1] at hl; simp [hc] at hl
    obtain ⟨a', b', h1, rfl⟩ := this
    refine ⟨fun _ rest he => ?_, fun hr rest he => ?_⟩
    · rw [List.append_assoc] at he
      exact derives_close h h1 hc he
    · rw [List.append_assoc] at he
      exact (ih a' d b' h1 hd).2 hr _ he
  | item ts r _ ih =>
    intro a d b e hd
    exact ⟨fun _ => (ih a d b e hd).1 (by simp), (ih a d b e hd).2⟩
  | postfix_ ts r z q _ hp ih =>
    intro a d b e hd
    obtain ⟨p1, p2, p3, _, p5⟩ := postfix_type hp
    rcases split_mid e with ⟨b', h1, rfl⟩ | ⟨a', h1, h2⟩
    · have : ∀ rest, ¬ Ends (b' ++ [z] ++ rest) := by
        intro rest he
        rw [List.append_assoc] at he
        rcases ((ih a d b' h1 hd).1 (by simp) _ he).head with h | h | h
        · exact p2 h
        · exact p3 h
        · exact p1 h
      exact ⟨fun _ rest he => absurd he (this rest), fun _ => this⟩
    · have := single h1
      subst this
      cases a' with
      | cons x a' => simp at h1
      | nil =>
        simp only [List.nil_append, List.cons.injEq, true_and] at h1
        subst h1
        exact ⟨fun _ rest he => he, fun hq => by rw [p5 hd] at hq; cases hq⟩
  | seq1 ts r _ ih =>
    intro a d b e hd
    exact ⟨fun _ => (ih a d b e hd).1 (by simp), (ih a d b e hd).2⟩
  | seq ts us l r _ h2 ih1 ih2 =>
    intro a d b e hd
    rcases split_mid e with ⟨b', e1, rfl⟩ | ⟨a', e1, _⟩
    · have : ∀ rest, ¬ Ends (b' ++ us ++ rest) := by
        intro rest he
        rw [List.append_assoc] at he
        obtain ⟨t, vs, rfl, t1, t2, t3⟩ := derives_front h2
        rcases ((ih1 a d b' e1 hd).1 (by simp) _ he).head with h | h | h
        · exact t1 h
        · exact t2 h
        · exact t3 h
      exact ⟨fun _ rest he => absurd he (this rest), fun _ => this⟩
    · exact ⟨fun _ => (ih2 a' d b e1 hd).1 (by simp), (ih2 a' d b e1 hd).2⟩
  | alt1 ts r _ ih =>
    intro a d b e hd
    exact ⟨fun h => absurd rfl h, (ih a d b e hd).2⟩
  | alt ts us o l r ho h1 h2 ih1 ih2 =>
    intro a d b e hd
    refine ⟨fun h => absurd rfl h, fun hr rest he => ?_⟩
    simp only [Re.endsLazy, Bool.or_eq_false_iff] at hr
    rcases split_mid e with ⟨b', e1, rfl⟩ | ⟨a', e1, _⟩
    · rw [List.append_assoc] at he
      exact (ih1 a d b' e1 hd).2 hr.1 _ he
    · cases a' with
      | nil =>
        simp only [List.nil_append, List.cons.injEq] at e1
        rw [← e1.1] at hd
        exact absurd ho (lazy_ty hd).1
      | cons x a' =>
        simp only [List.cons_append, List.cons.injEq] at e1
        exact (ih2 a' d b e1.2 hd).2 hr.2 _ he

theorem pruneLoop_same {toks : List Tok} : ∀ (n : Nat) (idxs : List Nat), idxs.length < n →
    (∀ i ∈ idxs, ∃ op, toks[i]? = some op ∧ isEnd (toks.length + 1) (toks.drop (i + 1)) = false) → pruneLoop n toks idxs = .ok toks
  | 0, idxs, h, _ => by omega
  | n + 1, [], _, _ => rfl
  | n + 1, i :: idxs, h, hi => by
    obtain ⟨op, h1, h2⟩ := hi i (by simp)
    unfold pruneLoop
    rw [h1]
    simp only [h2, Bool.false_eq_true, if_false, bind, Except.bind]
    refine pruneLoop_same n _ ?_ fun j hj => hi j (List.mem_cons_of_mem _ ((List.dropWhile_sublist _).subset hj))
    have := (List.dropWhile_sublist (l := idxs) (fun j => decide (i ≤ j) && decide (j ≤ i))).length_le
    simp only [List.length_cons] at h
    omega

theorem prune_same {us : List Tok} {r : Re} (h : Derives .alt us r) (hr : r.endsLazy = false) (n : Nat)
    (hn : (lazyIndexes (beginTok :: us ++ [endTok])).length < n) :
    pruneLoop n (beginTok :: us ++ [endTok]) (lazyIndexes (beginTok :: us ++ [endTok])).reverse = .ok (beginTok :: us ++ [endTok]) := by
  apply pruneLoop_same
  · rw [List.length_reverse]; omega
  · intro i hi
    rw [List.mem_reverse] at hi
    unfold lazyIndexes at hi
    rw [List.mem_filter] at hi
    obtain ⟨_, h2⟩ := hi
    obtain ⟨op, h3, h4⟩ := (Option.any_eq_true _ _).1 h2
    refine ⟨op, h3, ?_⟩
    cases i with
    | zero => simp only [List.cons_append, List.getElem?_cons_zero, Option.some.injEq] at h3; rw [← h3] at h4; simp [beginTok, isLazy] at h4
    | succ i =>
      simp only [List.cons_append, List.getElem?_cons_succ, List.drop_succ_cons] at h3 ⊢
      have hi : i < us.length := by
        apply Decidable.byContradiction
        intro hi
        rw [List.getElem?_append_right (by omega)] at h3
        cases hj : i - us.length with
        | zero => rw [hj] at h3; simp only [List.getElem?_cons_zero, Option.some.injEq] at h3; rw [← h3] at h4; simp [endTok, isLazy] at h4
        | succ j => rw [hj] at h3; simp at h3
      rw [List.getElem?_append_left hi] at h3
      have e : us = us.take i ++ op :: us.drop (i + 1) := by
        obtain ⟨h5, rfl⟩ := List.getElem?_eq_some_iff.1 h3
        simp
      rw [List.drop_append_of_le_length (by omega)]
      cases hb : isEnd ((beginTok :: (us ++ [endTok])).length + 1) (us.drop (i + 1) ++ [endTok]) with
      | false => rfl
      | true =>
        refine absurd ⟨_, ?_, hb⟩ ((not_ends h _ _ _ e h4).2 hr [endTok])
        simp only [List.length_append, List.length_drop, List.length_cons, List.length_nil]
        omega

/-! ### The rule is split into its alternatives -/

theorem splitOr_inside : ∀ (us : List Tok) (n m : Nat) (cur rest : List Tok), pdepth n us = some m → (∀ t ∈ us, t.type ≠ .end_) →
    splitOr ((n : Int) + 1) cur (us ++ rest) = splitOr ((m : Int) + 1) (cur ++ us) rest
  | [], n, m, cur, rest, h, _ => by
    simp only [pdepth, Option.some.injEq] at h
    subst h
    simp
  | t :: us, n, m, cur, rest, h, hn => by
    have ih := splitOr_inside us
    have hn' : ∀ t ∈ us, t.type ≠ .end_ := fun t ht => hn t (by simp [ht])
    have he := hn t (by simp)
    unfold pdepth at h
    rw [List.cons_append, splitOr]
    split
    · rename_i ht
      simp only [ht] at h
      have := ih (n + 1) m (cur ++ [t]) rest h hn'
      simpa using this
    · rename_i ht
      simp only [ht] at h
      split at h
      · cases h
      · have := ih (n - 1) m (cur ++ [t]) rest h hn'
        rw [show ((n : Int) + 1 - 1) = ((n - 1 : Nat) : Int) + 1 by omega]
        simpa using this
    · rename_i ht
      simp only [ht] at h
      rw [if_neg (by omega)]
      have := ih n m (cur ++ [t]) rest h hn'
      simpa using this
    · rename_i ht
      exact absurd ht he
    · have : pdepth n us = some m := by
        split at h
        · simp_all
        · simp_all
        · exact h
      have := ih n m (cur ++ [t]) rest this hn'
      simpa using this

theorem splitOr_seq {l : Level} {us : List Tok} {r : Re} (h : Derives l us r) (hl : l ≠ .alt) : ∀ (cur rest : List Tok),
    splitOr 0 cur (us ++ rest) = splitOr 0 (cur ++ us) rest := by
  induction h with
  | charset => intro cur rest; simp [splitOr]
  | bol => intro cur rest; simp [splitOr]
  | eol => intro cur rest; simp [splitOr]
  | paren o c ts r ho hc h ih =>
    intro cur rest
    simp only [List.cons_append, splitOr, ho]
    have h1 := splitOr_inside ts 0 0 (cur ++ [o]) (c :: rest) (derives_pdepth h 0) (fun t ht => (derives_types h t ht).1)
    simp only [Int.natCast_zero, Int.zero_add] at h1 ⊢
    rw [List.append_assoc, List.cons_append, List.nil_append, h1]
    simp only [splitOr, hc]
    simp
  | item ts r _ ih => exact ih (by simp)
  | postfix_ ts r z q _ hp ih =>
    intro cur rest
    obtain ⟨p1, p2, p3, p4, _⟩ := postfix_type hp
    rw [List.append_assoc, ih (by simp), List.cons_append, List.nil_append, splitOr]
    split
    · rename_i h; exact absurd h p4
    · rename_i h; exact absurd h p3
    · rename_i h; exact absurd h p2
    · rename_i h; exact absurd h p1
    · simp
  | seq1 ts r _ ih => exact ih (by simp)
  | seq ts us l r _ h2 ih1 ih2 =>
    intro cur rest
    rw [List.append_assoc, ih1 (by simp), ih2 (by simp), List.append_assoc]
  | alt1 ts r _ ih => exact absurd rfl hl
  | alt ts us o l r ho h1 h2 ih1 ih2 => exact absurd rfl hl

/-- The tokens of a rule. -/
def wrap (us : List Tok) : List Tok := beginTok :: us ++ [endTok]

theorem splitOr_alt {l : Level} {vs : List Tok} {r : Re} (h : Derives l vs r) (hl : l = .alt) : ∃ (ps : List (List Tok × Re)) (u : List Tok) (q : Re),
    (∀ p ∈ ps, Derives .seq p.1 p.2) ∧ Derives .seq u q ∧ Alternatives r (ps.map (·.2) ++ [q]) ∧
    (∀ rest, splitOr 0 [] (vs ++ rest) = ps.map (fun p => wrap p.1) ++ splitOr 0 u rest) ∧
    (ps.map (·.1) ++ [u]).head?.bind List.head? = vs.head? ∧ (∃ a, vs = a ++ u) := by
  induction h with
  | charset | bol | eol | paren | item | postfix_ | seq1 | seq => cases hl
  | alt1 ts r h _ => exact ⟨[], ts, r, by simp, h, .one _, fun rest => by rw [splitOr_seq h (by simp)]; rfl, by simp, [], rfl⟩
  | alt ts us o l r ho h1 h2 ih1 _ =>
    obtain ⟨ps, u, q, g1, g2, g3, g4, g5, a, g6⟩ := ih1 rfl
    refine ⟨ps ++ [(u, q)], us, r, ?_, h2, ?_, ?_, ?_, ts ++ [o], by simp⟩
    · intro p hp
      rcases List.mem_append.1 hp with hp | hp
      · exact g1 p hp
      · simp only [List.mem_cons, List.not_mem_nil, or_false] at hp; subst hp; exact g2
    · rw [List.map_append]
      exact .alt _ _ _ _ g3 (.one _)
    · intro rest
      rw [List.append_assoc, g4, List.cons_append, splitOr]
      simp only [ho, if_true]
      rw [splitOr_seq h2 (by simp)]
      simp [wrap]
    · obtain ⟨t, vs, rfl, _⟩ := derives_front h1
      simp only [List.map_append, List.map_cons, List.map_nil]
      rw [List.append_assoc]
      have : ∀ (x : List (List Tok)) (y : List (List Tok)), x ≠ [] → (x ++ y).head? = x.head? := by
        intro x y hx; cases x with
        | nil => exact absurd rfl hx
        | cons => rfl
      rw [← List.append_assoc, this _ _ (by simp), g5]
      rfl

end Lexertl.Lazy
