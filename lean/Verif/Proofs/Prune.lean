import Verif.Proofs.Tokenise

/-
`abstemious.hpp` and the splitting of rules with lazy operators: on tokens from the
tokeniser they do not read outside the vector, they terminate, and what they leave is a
regex with balanced parentheses.
-/
namespace Lexertl
open Spec

/-- `is_end` holds at these tokens. -/
def Ends (B : List Tok) : Prop := ∃ n, B.length < n ∧ isEnd n B = true

theorem Ends.head {t : Tok} {B : List Tok} (h : Ends (t :: B)) : t.type = .or_ ∨ t.type = .closeparen ∨ t.type = .end_ := by
  obtain ⟨n, h1, h2⟩ := h
  cases n with
  | zero => simp at h1
  | succ n =>
    unfold isEnd at h2
    split at h2 <;> simp_all

theorem Ends.close {t : Tok} {B : List Tok} (h : Ends (t :: B)) (ht : t.type = .closeparen) : Ends B := by
  obtain ⟨n, h1, h2⟩ := h
  cases n with
  | zero => simp at h1
  | succ n =>
    simp only [List.length_cons] at h1
    unfold isEnd at h2
    rw [ht] at h2
    exact ⟨n, by omega, h2⟩

/-- A piece `S` of the regex with balanced parentheses: from `start` to `idx`. -/
structure Cut (max : Nat) (toks : List Tok) (p S B : List Tok) (start idx k : Nat) : Prop where
  eq : toks = beginTok :: p ++ S ++ (B ++ [endTok])
  hstart : start = p.length + 1
  hidx : idx + 1 = start + S.length
  ne : S ≠ []
  pdepthP : pdepth 0 p = some k
  pdepthS : pdepth k S = some k
  pdepthB : pdepth k B = some 0
  tokP : ∀ t ∈ p, TokOk max t
  tokB : ∀ t ∈ B, TokOk max t
  adjP : Adj .begin p
  adjB : Adj .charset B
  ends : Ends (B ++ [endTok])

theorem TokOk.ne_end {max : Nat} {t : Tok} (h : TokOk max t) : t.type ≠ .end_ ∧ t.type ≠ .begin := by
  rcases h with h | h | ⟨⟨_, _, h⟩, _⟩
  · simp [h.1]
  · simp only [List.mem_cons, List.not_mem_nil, or_false] at h
    rcases h with h | h | h | h | h <;> simp [h]
  · cases h <;> simp

theorem getElem?_mid {α : Type} (a b : List α) (n : Nat) (h : n = a.length) : (a ++ b)[n]? = b[0]? := by
  subst h
  rw [List.getElem?_append_right (Nat.le_refl _)]
  simp

theorem Cut.next {max : Nat} {toks p S B : List Tok} {start idx k : Nat} (h : Cut max toks p S B start idx k) :
    toks[idx + 1]? = (B ++ [endTok])[0]? := by
  rw [h.eq]
  refine getElem?_mid _ _ _ ?_
  have h1 := h.hstart
  have h2 := h.hidx
  simp only [List.length_append, List.length_cons]
  omega

theorem widen_total {max : Nat} {toks : List Tok} : ∀ (n : Nat) (p S B : List Tok) (start idx k : Nat),
    start < n → Cut max toks p S B start idx k →
    Total (fun x => ∃ p S B k, Cut max toks p S B x.1 x.2 k ∧ idx ≤ x.2) (widen toks n start idx)
  | 0, p, S, B, start, idx, k, hn, h => by omega
  | n + 1, p, S, B, start, idx, k, hn, h => by
    have hst := h.hstart
    have hidx := h.hidx
    unfold widen
    rw [h.next]
    obtain ⟨r, R, hr⟩ : ∃ r R, B ++ [endTok] = r :: R := by
      cases B with
      | nil => exact ⟨_, _, rfl⟩
      | cons b B => exact ⟨b, B ++ [endTok], rfl⟩
    rw [hr, hst]
    simp only [List.getElem?_cons_zero]
    have hl : toks[p.length]? = some (((beginTok :: p).getLast?).getD beginTok) := by
      rw [h.eq, List.append_assoc, List.getElem?_append_left (by simp)]
      rw [show p.length = (beginTok :: p).length - 1 by simp, ← List.getLast?_eq_getElem?]
      simp [List.getLast?_cons]
    rw [hl]
    dsimp only
    split
    · rename_i hc
      obtain ⟨c1, c2⟩ := hc
      rcases nil_or_snoc p with rfl | ⟨p', o, rfl⟩
      · simp [beginTok] at c1
      have ho : o.type = .openparen := by
        rw [← List.cons_append, List.getLast?_append] at c1
        simpa using c1
      cases B with
      | nil =>
        simp only [List.nil_append, List.cons.injEq] at hr
        rw [← hr.1] at c2
        simp [endTok] at c2
      | cons b B =>
        simp only [List.cons_append, List.cons.injEq] at hr
        obtain ⟨rfl, rfl⟩ := hr
        have hdp := h.pdepthP
        rw [pdepth_append] at hdp
        cases hk : pdepth 0 p' with
        | none => rw [hk] at hdp; simp at hdp
        | some k' =>
          rw [hk] at hdp
          simp only [Option.bind_some, pdepth_single, ho, Option.some.injEq] at hdp
          subst hdp
          have hdb := h.pdepthB
          simp only [pdepth, c2] at hdb
          rw [if_neg (by omega)] at hdb
          simp only [Nat.add_sub_cancel] at hdb
          have hcut : Cut max toks p' (o :: S ++ [b]) B (p'.length + 1) (idx + 1) k' := by
            refine ⟨?_, rfl, ?_, by simp, hk, ?_, hdb, fun t ht => h.tokP t (by simp [ht]), fun t ht => h.tokB t (by simp [ht]),
              ((adj_append ..).1 h.adjP).1, ?_, h.ends.close c2⟩
            · rw [h.eq]; simp
            · simp only [List.length_append, List.length_cons, List.length_nil] at hst hidx ⊢; omega
            · rw [pdepth_append]
              simp only [pdepth, ho]
              rw [h.pdepthS]
              simp [pdepth, c2]
            · have := h.adjB.2
              rw [c2] at this
              cases B with
              | nil => trivial
              | cons v vs => exact ⟨fun _ => rfl, this.2⟩
          have := widen_total n p' _ B _ _ k' (by simp at hst; omega) hcut
          rw [show (p' ++ [o]).length = p'.length + 1 by simp]
          refine this.mono fun x ⟨a, b, c, d, h1, h2⟩ => ⟨a, b, c, d, h1, by omega⟩
    · exact ⟨p, S, B, k, hst ▸ h, Nat.le_refl _⟩

/-- Going back from a closing parenthesis to the opening one. -/
theorem blockLen_spec : ∀ (m : Nat) (ts : List Tok) (k : Nat), 1 ≤ m → m ≤ k → pdepth 0 ts = some k →
    ∃ p o q, ts = p ++ o :: q ∧ o.type = .openparen ∧ blockLen m (ts.reverse ++ [beginTok]) = some (q.length + 1) ∧
      pdepth 0 p = some (k - m) ∧ pdepth (k - m + 1) q = some k := by
  intro m ts
  obtain ⟨r, rfl⟩ : ∃ r, ts = List.reverse r := ⟨ts.reverse, by simp⟩
  induction r generalizing m with
  | nil => intro k h1 h2 h3; simp [pdepth] at h3; omega
  | cons t r ih =>
    rw [List.reverse_cons]
    generalize r.reverse = ts at ih
    intro k h1 h2 h3
    rw [pdepth_append] at h3
    cases hk : pdepth 0 ts with
    | none => rw [hk] at h3; simp at h3
    | some j =>
      rw [hk] at h3
      simp only [Option.bind_some, pdepth_single] at h3
      rw [List.reverse_append]
      simp only [List.reverse_cons, List.reverse_nil, List.nil_append, List.cons_append, List.singleton_append]
      unfold blockLen
      split at h3
      · rename_i ht
        simp only [Option.some.injEq] at h3
        subst h3
        simp only [ht]
        split
        · rename_i hm
          subst hm
          exact ⟨ts, t, [], rfl, ht, rfl, by simpa using hk, by simp [pdepth]⟩
        · obtain ⟨p, o, q, e1, e2, e3, e4, e5⟩ := ih (m - 1) j (by omega) (by omega) hk
          refine ⟨p, o, q ++ [t], by rw [e1]; simp, e2, by rw [e3]; simp, ?_, ?_⟩
          · rw [e4]; congr 1; omega
          · rw [pdepth_append]
            rw [show j + 1 - m + 1 = j - (m - 1) + 1 by omega, e5]
            simp [pdepth, ht]
      · rename_i ht
        split at h3
        · contradiction
        simp only [Option.some.injEq] at h3
        simp only [ht]
        obtain ⟨p, o, q, e1, e2, e3, e4, e5⟩ := ih (m + 1) j (by omega) (by omega) hk
        refine ⟨p, o, q ++ [t], by rw [e1]; simp, e2, by rw [e3]; simp, ?_, ?_⟩
        · rw [e4]; congr 1; omega
        · rw [pdepth_append]
          rw [show k - m + 1 = j - (m + 1) + 1 by omega, e5]
          simp only [Option.bind_some, pdepth, ht]
          rw [if_neg (by omega)]
          simp; omega
      · rename_i t1 t2
        simp only [Option.some.injEq] at h3
        subst h3
        obtain ⟨p, o, q, e1, e2, e3, e4, e5⟩ := ih m j h1 h2 hk
        refine ⟨p, o, q ++ [t], by rw [e1]; simp, e2, ?_, e4, ?_⟩
        · split
          · contradiction
          · contradiction
          · rw [e3]; simp
        · rw [pdepth_append, e5, Option.bind_some, pdepth_single]
          split
          · contradiction
          · contradiction
          · rfl

/-- The regex around the operator at `idx`. -/
structure Around (max : Nat) (toks as : List Tok) (op : Tok) (B : List Tok) (idx k : Nat) : Prop where
  eq : toks = beginTok :: as ++ op :: (B ++ [endTok])
  hidx : idx = as.length + 1
  tokA : ∀ t ∈ as, TokOk max t
  tokB : ∀ t ∈ B, TokOk max t
  pdepthA : pdepth 0 as = some k
  pdepthB : pdepth k B = some 0
  adjA : Adj .begin as
  last : opens (lastType .begin as) = false
  adjB : Adj .charset B
  post : isPostfix op.type = true

theorem adj_of_ends {B : List Tok} {l : TT} (h : Adj .charset B) (hB : Ends (B ++ [endTok])) : Adj l B := by
  cases B with
  | nil => trivial
  | cons b B =>
    refine ⟨fun hp => ?_, h.2⟩
    rcases hB.head with h | h | h <;> rw [h] at hp <;> simp [isPostfix] at hp

/-- What is left of a regex after a removal that kept the tokens before `start`. -/
structure Left (max : Nat) (toks : List Tok) (idx : Nat) (x : List Tok × Nat × Nat) : Prop where
  whole : WholeOk max x.1
  le : x.2.1 ≤ idx ∧ idx ≤ x.2.2
  keep : ∀ (i : Nat) t, i < x.2.1 → toks[i]? = some t → t.type ≠ .or_ → x.1[i]? = some t

theorem body_join {max k : Nat} {p B : List Tok} (h1 : ∀ t ∈ p, TokOk max t) (h2 : ∀ t ∈ B, TokOk max t)
    (h3 : pdepth 0 p = some k) (h4 : pdepth k B = some 0) (h5 : Adj .begin p) (h6 : Adj (lastType .begin p) B) :
    Body max (p ++ B) 0 := by
  refine ⟨?_, ?_, ?_⟩
  · intro t ht
    rcases List.mem_append.1 ht with ht | ht
    · exact h1 t ht
    · exact h2 t ht
  · rw [pdepth_append, h3]; exact h4
  · rw [adj_append]; exact ⟨h5, h6⟩

theorem removeSequence_total {max : Nat} {toks as : List Tok} {op : Tok} {B : List Tok} {idx k : Nat}
    (h : Around max toks as op B idx k) (hend : Ends (B ++ [endTok])) :
    Total (Left max toks idx) (removeSequence toks idx) := by
  have hidx := h.hidx
  rcases nil_or_snoc as with rfl | ⟨as', t, rfl⟩
  · have := h.last; simp [lastType, opens] at this
  have hrev : (toks.take idx).reverse = t :: (as'.reverse ++ [beginTok]) := by
    rw [h.eq, List.take_left' (by simp [hidx])]
    simp
  have hopd : ∀ n, pdepth n [op] = some n := by
    intro n
    have := h.post
    rw [pdepth_single]
    split
    · rename_i e; rw [e] at this; simp [isPostfix] at this
    · rename_i e; rw [e] at this; simp [isPostfix] at this
    · rfl
  have hdA := h.pdepthA
  rw [pdepth_append] at hdA
  -- where the piece to remove starts
  have hcut : ∃ start p S, Cut max toks p S B start idx k ∧ start ≤ idx ∧ (if t.type = .closeparen then
        match blockLen 1 (as'.reverse ++ [beginTok]) with
        | some n => (.ok (idx - 1 - n) : M Nat)
        | none => .error (.ub "tokens_")
      else .ok (idx - 1)) = .ok start := by
    cases hj : pdepth 0 as' with
    | none => rw [hj] at hdA; simp at hdA
    | some j =>
      rw [hj] at hdA
      simp only [Option.bind_some, pdepth_single] at hdA
      have hopen : t.type ≠ .openparen := by
        intro ht
        have := h.last
        rw [lastType_append_single, ht] at this
        simp [opens] at this
      split at hdA
      · contradiction
      · rename_i ht
        split at hdA
        · contradiction
        simp only [Option.some.injEq] at hdA
        obtain ⟨p, o, q, e1, e2, e3, e4, e5⟩ := blockLen_spec 1 as' j (by omega) (by omega) hj
        rw [if_pos ht, e3]
        have hp1 : j - 1 = k := hdA
        rw [hp1] at e4 e5
        refine ⟨p.length + 1, p, o :: q ++ [t] ++ [op], ⟨?_, rfl, ?_, by simp, e4, ?_, h.pdepthB, ?_, h.tokB, ?_, h.adjB, hend⟩, ?_, ?_⟩
        · rw [h.eq, e1]; simp
        · rw [hidx, e1]; simp only [List.length_append, List.length_cons, List.length_nil]; omega
        · rw [pdepth_append, pdepth_append]
          simp only [pdepth, e2]
          rw [e5]
          simp only [Option.bind_some, ht]
          rw [if_neg (by omega)]
          simp only [Option.bind_some]
          rw [show j - 1 = k from hp1]
          exact hopd k
        · intro u hu; exact h.tokA u (by rw [e1]; simp [hu])
        · have := h.adjA
          rw [e1, List.append_assoc] at this
          exact ((adj_append ..).1 this).1
        · rw [hidx, e1]; simp only [List.length_append, List.length_cons]; omega
        · dsimp only
          congr 1
          rw [hidx, e1]; simp; omega
      · rename_i t1 t2
        simp only [Option.some.injEq] at hdA
        subst hdA
        rw [if_neg t2]
        refine ⟨as'.length + 1, as', [t] ++ [op], ⟨?_, rfl, ?_, by simp, hj, ?_, h.pdepthB, ?_, h.tokB, ?_, h.adjB, hend⟩, ?_, ?_⟩
        · rw [h.eq]; simp
        · rw [hidx]; simp
        · rw [pdepth_append, pdepth_single]
          split
          · contradiction
          · contradiction
          · exact hopd j
        · intro u hu; exact h.tokA u (by simp [hu])
        · exact ((adj_append ..).1 h.adjA).1
        · rw [hidx]; simp
        · rw [hidx]; simp
  obtain ⟨start, p, S, hc, hle, heq⟩ := hcut
  unfold removeSequence
  rw [hrev]
  dsimp only
  have fin : Total (Left max toks idx) (do
      let (start, idx) ← widen toks (toks.length + 1) start idx
      let toks := toks.take start ++ toks.drop (idx + 1)
      match toks[start]? with
      | none => .error (.ub "tokens_")
      | some t =>
        if t.type = .or_ then .ok (toks.eraseIdx start, start, idx)
        else if t.type ≠ .begin ∧ (toks[start - 1]?).map (·.type) = some .or_ then
          .ok (toks.eraseIdx (start - 1), start, idx)
        else .ok (toks, start, idx)) := by
    have hlen : start < toks.length + 1 := by
      rw [h.eq]
      simp only [List.length_append, List.length_cons]
      simp only [List.length_append, List.length_cons] at hidx
      omega
    -- `start` only gets smaller
    refine Spec.Total.bind (Q := fun x => x.1 ≤ idx ∧ ∃ p S B k, Cut max toks p S B x.1 x.2 k ∧ idx ≤ x.2) ?_ ?_
    · have hw := widen_total (toks.length + 1) p S B start idx k hlen hc
      have hmono : ∀ n a b, Total (fun x : Nat × Nat => x.1 ≤ a) (widen toks n a b) ∨ ¬ Total (fun _ : Nat × Nat => True) (widen toks n a b) := by
        intro n
        induction n with
        | zero => intro a b; right; simp [widen, Total]
        | succ n ih =>
          intro a b
          unfold widen
          split
          · split
            · split
              · rcases ih ‹Nat› (b + 1) with h | h
                · exact .inl (h.mono fun x hx => by omega)
                · exact .inr h
              · left; exact Nat.le_refl _
            · right; simp [Total]
          · right; simp [Total]
      rcases hmono (toks.length + 1) start idx with hm | hm
      · cases hx : widen toks (toks.length + 1) start idx with
        | ok x =>
          rw [hx] at hw hm
          exact ⟨Nat.le_trans hm hle, hw⟩
        | error e =>
          rw [hx] at hw
          cases e <;> exact hw
      · exact (hm (hw.mono fun _ _ => trivial)).elim
    · rintro ⟨start, idx'⟩ ⟨hle, p, S, B, k, hc, hle'⟩
      dsimp only at hc hle hle' ⊢
      have hst := hc.hstart
      have hcut : toks.take start ++ toks.drop (idx' + 1) = beginTok :: p ++ (B ++ [endTok]) := by
        have h2 := hc.hidx
        rw [hc.eq, List.take_append_of_le_length (by simp [hst]), List.take_left' (by simp [hst]),
          List.drop_left' (by simp only [List.length_append, List.length_cons]; omega)]
      have hkeep : ∀ (i : Nat) t, i < start → toks[i]? = some t → (beginTok :: p ++ (B ++ [endTok]))[i]? = some t := by
        intro i t hi ht
        rw [hc.eq, List.append_assoc, List.getElem?_append_left (by simp; omega)] at ht
        rw [List.getElem?_append_left (by simp; omega)]
        exact ht
      rw [hcut]
      have hnext : (beginTok :: p ++ (B ++ [endTok]))[start]? = (B ++ [endTok])[0]? :=
        getElem?_mid _ _ _ (by simp [hst])
      rw [hnext]
      split
      · rename_i hn; cases B <;> simp at hn
      · rename_i u hu
        split
        · rename_i hor
          cases B with
          | nil => simp at hu; subst hu; simp [endTok] at hor
          | cons b B =>
            simp at hu
            subst hu
            have hB : (beginTok :: p ++ (b :: B ++ [endTok])).eraseIdx start = beginTok :: (p ++ B) ++ [endTok] := by
              rw [List.eraseIdx_append_of_length_le (by simp [hst])]
              simp [hst]
            have hd := hc.pdepthB
            simp only [pdepth, hor] at hd
            refine ⟨?_, ⟨hle, hle'⟩, ?_⟩
            · dsimp only
              rw [hB]
              refine ⟨_, rfl, body_join hc.tokP (fun t ht => hc.tokB t (by simp [ht])) hc.pdepthP hd hc.adjP ?_⟩
              have := hc.adjB.2
              rw [hor] at this
              cases B with
              | nil => trivial
              | cons v vs =>
                refine ⟨fun hp => ?_, this.2⟩
                have := this.1 hp
                simp [opens] at this
            · intro i v hi hv _
              have := hkeep i v hi hv
              dsimp only at hi ⊢
              rw [hB, List.cons_append, List.append_assoc, ← List.cons_append]
              rw [List.getElem?_append_left (by simp; omega)] at this ⊢
              exact this
        split
        · rename_i hor hpre
          rcases nil_or_snoc p with rfl | ⟨p', o, rfl⟩
          · simp [hst, beginTok] at hpre
          · have ho : o.type = .or_ := by
              have := hpre.2
              rw [hst, List.getElem?_append_left (by simp)] at this
              simpa [List.getElem?_cons] using this
            have hB : (beginTok :: (p' ++ [o]) ++ (B ++ [endTok])).eraseIdx (start - 1) = beginTok :: (p' ++ B) ++ [endTok] := by
              rw [show beginTok :: (p' ++ [o]) ++ (B ++ [endTok]) = (beginTok :: p') ++ (o :: (B ++ [endTok])) by simp,
                List.eraseIdx_append_of_length_le (by simp [hst])]
              simp [hst]
            have hd := hc.pdepthP
            have hd' : pdepth 0 p' = some k := by
              rw [pdepth_append] at hd
              cases hj : pdepth 0 p' with
              | none => rw [hj] at hd; simp at hd
              | some j => rw [hj] at hd; simpa [pdepth_single, ho] using hd
            refine ⟨?_, ⟨hle, hle'⟩, ?_⟩
            · dsimp only
              rw [hB]
              exact ⟨_, rfl, body_join (fun t ht => hc.tokP t (by simp [ht])) hc.tokB hd' hc.pdepthB
                ((adj_append ..).1 hc.adjP).1 (adj_of_ends hc.adjB hc.ends)⟩
            · intro i v hi hv hvo
              have := hkeep i v hi hv
              dsimp only at hi ⊢
              have hne : i ≠ p'.length + 1 := by
                rintro rfl
                rw [List.getElem?_append_left (by simp)] at this
                simp at this
                subst this
                exact hvo ho
              simp only [List.length_append, List.length_cons, List.length_nil] at hst
              rw [hB, List.cons_append, List.append_assoc, ← List.cons_append]
              rw [show beginTok :: (p' ++ [o]) ++ (B ++ [endTok]) = (beginTok :: p') ++ (o :: (B ++ [endTok])) by simp] at this
              rw [List.getElem?_append_left (by simp only [List.length_cons]; omega)] at this ⊢
              exact this
        · refine ⟨⟨p ++ B, by simp, body_join hc.tokP hc.tokB hc.pdepthP hc.pdepthB hc.adjP (adj_of_ends hc.adjB hc.ends)⟩,
            ⟨hle, hle'⟩, ?_⟩
          intro i v hi hv _
          exact hkeep i v hi hv
  split
  · rename_i ht
    rw [if_pos ht] at heq
    split
    · rename_i n hn
      rw [hn] at heq
      simp only [Except.ok.injEq] at heq
      rw [heq]
      exact fin
    · rename_i hn
      rw [hn] at heq
      contradiction
  · rename_i ht
    rw [if_neg ht] at heq
    simp only [Except.ok.injEq] at heq
    rw [heq]
    exact fin

theorem isPostfix_of_lazy {t : TT} (h : isLazy t = true) : isPostfix t = true := by
  cases t <;> simp_all [isLazy, isPostfix]

theorem lazy_ne_or {t : TT} (h : isLazy t = true) : t ≠ .or_ := by
  rintro rfl
  simp [isLazy] at h

/-- Around an operator of a whole regex. -/
theorem around_of_whole {max : Nat} {toks : List Tok} {idx : Nat} {op : Tok} (h : WholeOk max toks)
    (hop : toks[idx]? = some op) (hpost : isPostfix op.type = true) :
    ∃ as B k, Around max toks as op B idx k ∧ TokOk max op ∧ toks.drop (idx + 1) = B ++ [endTok] := by
  obtain ⟨ts, rfl, hB⟩ := h
  cases idx with
  | zero => simp at hop; subst hop; simp [beginTok, isPostfix] at hpost
  | succ j =>
    rw [List.cons_append, List.getElem?_cons_succ] at hop
    have hj : j < ts.length := by
      have h1 := (List.getElem?_eq_some_iff.1 hop).1
      simp at h1
      rcases Nat.lt_or_ge j ts.length with h | h
      · exact h
      · have : j = ts.length := by omega
        subst this
        simp at hop
        subst hop
        simp [endTok, isPostfix] at hpost
    rw [List.getElem?_append_left hj] at hop
    have hsplit : ts = ts.take j ++ op :: ts.drop (j + 1) := by
      rw [List.getElem?_eq_getElem hj] at hop
      simp only [Option.some.injEq] at hop
      rw [← hop, ← List.drop_eq_getElem_cons hj, List.take_append_drop]
    have hlen : (ts.take j).length = j := by simp; omega
    generalize ts.take j = as at hsplit hlen
    generalize ts.drop (j + 1) = B at hsplit
    subst hsplit
    have hd := hB.pdepth
    rw [pdepth_append] at hd
    cases hk : pdepth 0 as with
    | none => rw [hk] at hd; simp at hd
    | some k =>
      rw [hk] at hd
      simp only [Option.bind_some] at hd
      have hd' : pdepth k B = some 0 := by
        rw [show op :: B = [op] ++ B from rfl, pdepth_append, pdepth_single] at hd
        split at hd
        · rename_i e; rw [e] at hpost; simp [isPostfix] at hpost
        · rename_i e; rw [e] at hpost; simp [isPostfix] at hpost
        · exact hd
      obtain ⟨a1, a2⟩ := (adj_append ..).1 hB.adj
      refine ⟨as, B, k, ⟨by simp, by rw [hlen], fun t ht => hB.tok t (by simp [ht]), fun t ht => hB.tok t (by simp [ht]),
        hk, hd', a1, a2.1 hpost, ?_, hpost⟩, hB.tok op (by simp), ?_⟩
      · have := a2.2
        cases B with
        | nil => trivial
        | cons b B => exact ⟨fun _ => rfl, this.2⟩
      · rw [show beginTok :: (as ++ op :: B) ++ [endTok] = (beginTok :: as ++ [op]) ++ (B ++ [endTok]) by simp]
        exact List.drop_left' (by simp [hlen])

theorem pairwise_dropWhile {idx start : Nat} : ∀ (idxs : List Nat), (∀ i ∈ idxs, i ≤ idx) → idxs.Pairwise (· > ·) →
    ∀ i ∈ idxs.dropWhile (fun i => decide (start ≤ i) && decide (i ≤ idx)), i < start ∧ i ∈ idxs
  | [], _, _, i, hi => by simp at hi
  | j :: js, h1, h2, i, hi => by
    rw [List.dropWhile_cons] at hi
    rw [List.pairwise_cons] at h2
    split at hi
    · have := pairwise_dropWhile js (fun i h => h1 i (by simp [h])) h2.2 i hi
      exact ⟨this.1, by simp [this.2]⟩
    · rename_i hc
      have hj := h1 j (by simp)
      have hjs : j < start := by
        simp only [Bool.and_eq_true, decide_eq_true_eq] at hc
        omega
      refine ⟨?_, hi⟩
      rcases List.mem_cons.1 hi with rfl | hi
      · exact hjs
      · have := h2.1 i hi
        omega

theorem pruneLoop_total {max : Nat} : ∀ (n : Nat) (toks : List Tok) (idxs : List Nat), WholeOk max toks →
    idxs.length < n → idxs.Pairwise (· > ·) → (∀ i ∈ idxs, ∃ t, toks[i]? = some t ∧ isLazy t.type = true) →
    Total (WholeOk max) (pruneLoop n toks idxs)
  | 0, _, _, _, h, _, _ => by omega
  | n + 1, toks, [], hw, _, _, _ => hw
  | n + 1, toks, idx :: idxs, hw, hn, hpw, hlz => by
    obtain ⟨op, hop, hl⟩ := hlz idx (by simp)
    rw [List.pairwise_cons] at hpw
    simp only [List.length_cons] at hn
    unfold pruneLoop
    rw [hop]
    dsimp only
    -- the rest of the loop
    have fin : ∀ x : List Tok × Nat × Nat, Left max toks idx x →
        Total (WholeOk max) (pruneLoop n x.1 (idxs.dropWhile (fun i => x.2.1 ≤ i && i ≤ x.2.2))) := by
      intro x hx
      have hsub := List.dropWhile_sublist (fun i => decide (x.2.1 ≤ i) && decide (i ≤ x.2.2)) (l := idxs)
      refine pruneLoop_total n _ _ hx.whole ?_ (hpw.2.sublist hsub) ?_
      · have := hsub.length_le
        omega
      · intro i hi
        obtain ⟨h1, h2⟩ := pairwise_dropWhile idxs (fun i h => by have := hpw.1 i h; have := hx.le.2; omega) hpw.2 i hi
        obtain ⟨t, ht, hlt⟩ := hlz i (by simp [h2])
        exact ⟨t, hx.keep i t h1 ht (lazy_ne_or hlt), hlt⟩
    have stay : Left max toks idx (toks, idx, idx) :=
      ⟨hw, ⟨Nat.le_refl _, Nat.le_refl _⟩, fun i t _ ht _ => ht⟩
    obtain ⟨as, B, k, hA, hok, hdrop⟩ := around_of_whole hw hop (isPostfix_of_lazy hl)
    split
    · rename_i hend
      have hends : Ends (B ++ [endTok]) := by
        refine ⟨toks.length + 1, ?_, by rw [← hdrop]; exact hend⟩
        rw [← hdrop, List.length_drop]
        omega
      split
      · exact (removeSequence_total hA hends).bind fin
      · exact (removeSequence_total hA hends).bind fin
      · -- `+?`
        refine fin (toks.eraseIdx idx, idx, idx) ⟨?_, ⟨Nat.le_refl _, Nat.le_refl _⟩, ?_⟩
        · refine ⟨as ++ B, ?_, body_join hA.tokA hA.tokB hA.pdepthA hA.pdepthB hA.adjA (adj_of_ends hA.adjB hends)⟩
          dsimp only
          rw [hA.eq, List.eraseIdx_append_of_length_le (by simp [hA.hidx])]
          simp [hA.hidx]
        · intro i t hi ht _
          dsimp only at hi ⊢
          rw [List.getElem?_eraseIdx_of_lt hi]
          exact ht
      · rename_i hop'
        -- `{n,m}?`
        have hset : toks.set idx { op with type := .repeatn, extra := beforeComma op.extra } =
            beginTok :: as ++ { op with type := .repeatn, extra := beforeComma op.extra } :: (B ++ [endTok]) := by
          rw [hA.eq, List.set_append_right _ _ (by simp [hA.hidx])]
          simp [hA.hidx]
        have hA' : Around max (toks.set idx { op with type := .repeatn, extra := beforeComma op.extra }) as
            { op with type := .repeatn, extra := beforeComma op.extra } B idx k :=
          ⟨hset, hA.hidx, hA.tokA, hA.tokB, hA.pdepthA, hA.pdepthB, hA.adjA, hA.last, hA.adjB, rfl⟩
        have hkeep : ∀ (i : Nat) t, i < idx → toks[i]? = some t →
            (toks.set idx { op with type := .repeatn, extra := beforeComma op.extra })[i]? = some t := by
          intro i t hi ht
          rw [List.getElem?_set_ne (by omega)]
          exact ht
        split
        · refine (removeSequence_total hA' hends).bind fun x hx => fin x ⟨hx.whole, hx.le, ?_⟩
          intro i t hi ht hto
          have := hx.le.1
          exact hx.keep i t hi (hkeep i t (by omega) ht) hto
        · rename_i hz
          refine fin (toks.set idx { op with type := .repeatn, extra := beforeComma op.extra }, idx, idx)
            ⟨?_, ⟨Nat.le_refl _, Nat.le_refl _⟩, fun i t hi ht _ => hkeep i t hi ht⟩
          refine ⟨as ++ { op with type := .repeatn, extra := beforeComma op.extra } :: B, by rw [hset]; simp, ?_⟩
          have hnew : TokOk max { op with type := .repeatn, extra := beforeComma op.extra } := by
            rcases hok with h | h | h
            · rw [hop'] at h; simp at h
            · rw [hop'] at h; simp at h
            · have h1 := (h.2 hop').resolve_left hz
              obtain ⟨r, q, hp⟩ := h.1
              cases hp <;> simp at hop'
              rename_i e s lo hi hc
              dsimp only at h1 ⊢
              refine .inr (.inr (postOk_of (Postfix.rep _ _ (Re.chars []) _ _ (Count.exact _ ?_ h1)) (by simp)))
              cases hc with
              | exact _ h2 _ => rw [beforeComma_dec h2.2]; exact h2
              | atLeast ds h2 _ => rw [beforeComma_append h2.2]; exact h2
              | between ds es h2 _ _ _ =>
                rw [beforeComma_append h2] at h1 ⊢
                refine ⟨?_, h2⟩
                rintro rfl
                simp [decVal] at h1
          refine ⟨?_, ?_, ?_⟩
          · intro t ht
            rcases List.mem_append.1 ht with ht | ht
            · exact hA.tokA t ht
            · rcases List.mem_cons.1 ht with rfl | ht
              · exact hnew
              · exact hA.tokB t ht
          · rw [pdepth_append, hA.pdepthA]
            exact hA.pdepthB
          · rw [adj_append]
            exact ⟨hA.adjA, fun _ => hA.last, adj_of_ends hA.adjB hends⟩
      · exact fin _ stay
    · exact fin _ stay

theorem lazyIndexes_spec (toks : List Tok) : (lazyIndexes toks).reverse.Pairwise (· > ·) ∧
    (lazyIndexes toks).reverse.length < toks.length + 1 ∧
    ∀ i ∈ (lazyIndexes toks).reverse, ∃ t, toks[i]? = some t ∧ isLazy t.type = true := by
  refine ⟨?_, ?_, ?_⟩
  · rw [List.pairwise_reverse]
    exact List.Pairwise.filter _ List.pairwise_lt_range
  · rw [List.length_reverse]
    have := List.length_filter_le (fun i => (toks[i]?).any (fun t => isLazy t.type)) (List.range toks.length)
    simp only [List.length_range] at this
    unfold lazyIndexes
    omega
  · intro i hi
    rw [List.mem_reverse] at hi
    unfold lazyIndexes at hi
    have := (List.mem_filter.1 hi).2
    cases ht : toks[i]? with
    | none => rw [ht] at this; simp at this
    | some t => rw [ht] at this; exact ⟨t, rfl, by simpa using this⟩

/-! ### Splitting -/

theorem splitOr_ok {max : Nat} : ∀ (ts cur : List Tok) (n : Nat), Body max cur n → (∀ t ∈ ts, TokOk max t) →
    pdepth n ts = some 0 → Adj (lastType .begin cur) ts →
    splitOr n cur (ts ++ [endTok]) ≠ [] ∧ ∀ toks ∈ splitOr n cur (ts ++ [endTok]), WholeOk max toks
  | [], cur, n, hc, _, hd, _ => by
    simp only [pdepth, Option.some.injEq] at hd
    subst hd
    simp only [List.nil_append, splitOr, endTok]
    refine ⟨by simp, ?_⟩
    intro toks ht
    simp only [List.mem_cons, List.not_mem_nil, or_false] at ht
    exact ⟨cur, by rw [ht]; simp [endTok], hc⟩
  | t :: ts, cur, n, hc, ht, hd, ha => by
    have htk := ht t (by simp)
    have hts : ∀ u ∈ ts, TokOk max u := fun u hu => ht u (by simp [hu])
    have snoc : ∀ m, m + (if t.type = .closeparen then 1 else 0) = n + (if t.type = .openparen then 1 else 0) →
        Body max (cur ++ [t]) m := fun m hm => hc.snoc htk hm ha.1
    have hadj : Adj (lastType .begin (cur ++ [t])) ts := by
      rw [lastType_append_single]; exact ha.2
    unfold pdepth at hd
    simp only [List.cons_append]
    unfold splitOr
    split at hd
    · rename_i h1
      simp only [h1]
      exact splitOr_ok ts (cur ++ [t]) (n + 1) (snoc _ (by simp [h1])) hts hd hadj
    · rename_i h1
      simp only [h1]
      split at hd
      · contradiction
      · rename_i hn
        have := splitOr_ok ts (cur ++ [t]) (n - 1) (snoc _ (by simp [h1]; omega)) hts hd hadj
        rw [show ((n - 1 : Nat) : Int) = (n : Int) - 1 by omega] at this
        exact this
    · rename_i h1 h2
      split
      · contradiction
      · contradiction
      · rename_i h3
        split
        · rename_i hn
          have hn : n = 0 := by omega
          subst hn
          obtain ⟨i1, i2⟩ := splitOr_ok ts [] 0 ⟨by simp, rfl, trivial⟩ hts hd (by
            have := ha.2
            rw [h3] at this
            cases ts with
            | nil => trivial
            | cons v vs =>
              refine ⟨fun hp => ?_, this.2⟩
              have := this.1 hp
              simp [opens] at this)
          refine ⟨by simp, ?_⟩
          intro toks htk
          rcases List.mem_cons.1 htk with rfl | htk
          · exact ⟨cur, by simp, hc⟩
          · exact i2 toks htk
        · exact splitOr_ok ts (cur ++ [t]) n (snoc _ (by simp [h3])) hts hd hadj
      · rename_i h3
        exact (htk.ne_end.1 h3).elim
      · exact splitOr_ok ts (cur ++ [t]) n (snoc _ (by rw [if_neg h1, if_neg h2])) hts hd hadj

/-- Tokenising any text: no undefined behaviour, no endless loop, and whole regexes. -/
theorem tokenise_total {E : TokEnv} (hE : TokEnvOk E) {macros : List (List Nat × List Tok)} (hm : MacrosOk E.max macros)
    (flags : ReFlags) (isMacro : Bool) {regex : List Nat} (hx : TextOk E regex) (hp : PlainCounts regex) :
    Total (fun tss => tss ≠ [] ∧ (∀ toks ∈ tss, WholeOk E.max toks) ∧
      (isMacro = true → tss.length = 1))
      (tokenise E flags macros isMacro regex) := by
  unfold tokenise
  refine (tokLoop_total hE hm (regex.length + 2) [] [] none { len := regex.length, rest := regex, flags := flags }
    hx hp ⟨by simp, rfl, trivial⟩ (by simp) (by simp)).bind fun toks hw => ?_
  have hw := stripParens_ok toks.length toks hw
  generalize stripParens toks.length toks = toks at hw
  have fin : ∀ toks, WholeOk E.max toks → Total (fun tss => tss ≠ [] ∧ (∀ toks ∈ tss, WholeOk E.max toks) ∧
      (isMacro = true → tss.length = 1))
      (if toks.length = 2 ∧ flags.matchZeroLen = false then throw_ "Empty regex is not allowed"
      else if isMacro ∨ lazyIndexes toks = [] then .ok [toks]
      else .ok (splitOr 0 [] toks.tail)) := by
    intro toks hw
    split
    · trivial
    split
    · exact ⟨by simp, by simpa using hw, by simp⟩
    · rename_i hc
      obtain ⟨ts, rfl, hB⟩ := hw
      have := splitOr_ok ts [] 0 ⟨by simp, rfl, trivial⟩ hB.tok hB.pdepth hB.adj
      exact ⟨this.1, this.2, fun h => (hc (.inl h)).elim⟩
  dsimp only
  split
  · exact fin toks hw
  · obtain ⟨h1, h2, h3⟩ := lazyIndexes_spec toks
    exact (pruneLoop_total _ toks _ hw h2 h1 h3).bind fin

end Lexertl
