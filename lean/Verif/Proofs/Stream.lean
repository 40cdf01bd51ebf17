import Verif.Spec.Stream

namespace Lexertl.Stream

/-! ## Folds -/

theorem foldl_lo (is : List Nat) : ∀ a : Nat,
    let l := is.foldl (fun l i => if i < l then i else l) a
    l ≤ a ∧ (∀ i ∈ is, l ≤ i) ∧ (l = a ∨ l ∈ is) := by
  induction is with
  | nil => intro a; simp
  | cons x is ih =>
    intro a
    simp only [List.foldl_cons]
    obtain ⟨h1, h2, h3⟩ := ih (if x < a then x else a)
    refine ⟨?_, ?_, ?_⟩
    · refine Nat.le_trans h1 ?_
      split <;> omega
    · intro i hi
      rcases List.mem_cons.mp hi with rfl | hi
      · refine Nat.le_trans h1 ?_
        split <;> omega
      · exact h2 i hi
    · rcases h3 with h3 | h3
      · by_cases hx : x < a
        · simp only [if_pos hx] at h3 ⊢; right; rw [h3]; simp
        · simp only [if_neg hx] at h3 ⊢; exact Or.inl h3
      · right; exact List.mem_cons_of_mem _ h3

theorem foldl_hi (is : List Nat) : ∀ a : Nat,
    let h := is.foldl (fun h i => if i ≠ npos ∧ i > h then i else h) a
    a ≤ h ∧ (∀ i ∈ is, i ≠ npos → i ≤ h) ∧ (h = a ∨ (h ∈ is ∧ h ≠ npos)) := by
  induction is with
  | nil => intro a; simp
  | cons x is ih =>
    intro a
    simp only [List.foldl_cons]
    obtain ⟨h1, h2, h3⟩ := ih (if x ≠ npos ∧ x > a then x else a)
    by_cases hx : x ≠ npos ∧ x > a
    · simp only [if_pos hx] at h1 h2 h3 ⊢
      refine ⟨by omega, ?_, ?_⟩
      · intro i hi hn
        rcases List.mem_cons.mp hi with rfl | hi
        · exact h1
        · exact h2 i hi hn
      · right
        rcases h3 with h3 | h3
        · rw [h3]; exact ⟨by simp, hx.1⟩
        · exact ⟨List.mem_cons_of_mem _ h3.1, h3.2⟩
    · simp only [if_neg hx] at h1 h2 h3 ⊢
      refine ⟨h1, ?_, ?_⟩
      · intro i hi hn
        rcases List.mem_cons.mp hi with rfl | hi
        · have : ¬ i > a := fun h => hx ⟨hn, h⟩
          omega
        · exact h2 i hi hn
      · rcases h3 with h3 | h3
        · exact Or.inl h3
        · exact Or.inr ⟨List.mem_cons_of_mem _ h3.1, h3.2⟩

theorem lowestOf_none {is : List Nat} (h : ∀ i ∈ is, i = npos) : lowestOf is = 0 := by
  obtain ⟨h1, h2, h3⟩ := foldl_lo is npos
  unfold lowestOf
  rcases h3 with h3 | h3
  · simp [h3]
  · simp [h _ h3]

theorem lowestOf_some {is : List Nat} {q : Nat} (hq : q ∈ is) (hn : q < npos)
    (hl : ∀ i ∈ is, q ≤ i) : lowestOf is = q := by
  obtain ⟨h1, h2, h3⟩ := foldl_lo is npos
  unfold lowestOf
  have hle := h2 q hq
  have hge : q ≤ is.foldl (fun l i => if i < l then i else l) npos := by
    rcases h3 with h3 | h3
    · rw [h3]; omega
    · exact hl _ h3
  have he : is.foldl (fun l i => if i < l then i else l) npos = q := by omega
  simp only [he]
  rw [if_neg (by omega)]

theorem highestOf_some {is : List Nat} {q : Nat} (hq : q ∈ is) (hn : q ≠ npos)
    (hl : ∀ i ∈ is, i ≠ npos → i ≤ q) : highestOf is = q := by
  obtain ⟨h1, h2, h3⟩ := foldl_hi is 0
  unfold highestOf
  have hle := h2 q hq hn
  rcases h3 with h3 | h3
  · omega
  · have := hl _ h3.1 h3.2
    omega

/-! ## Least position -/

theorem leastOf_none : ∀ {ps : List (Option Pos)}, leastOf ps = none →
      ∀ (i p : Nat), ps[i]? ≠ some (some (Pos.at p))
  | [], _, i, p => by simp
  | none :: ps, h, i, p => by
    simp only [leastOf] at h
    cases i with
    | zero => simp
    | succ i => simpa using leastOf_none h i p
  | some (Pos.at q) :: ps, h, i, p => by
    simp only [leastOf] at h
    cases hr : leastOf ps <;> rw [hr] at h <;> simp at h
  | some .ended :: ps, h, i, p => by
    simp only [leastOf] at h
    cases i with
    | zero => simp
    | succ i => simpa using leastOf_none h i p
  | some .null :: ps, h, i, p => by
    simp only [leastOf] at h
    cases i with
    | zero => simp
    | succ i => simpa using leastOf_none h i p
  | some .master :: ps, h, i, p => by
    simp only [leastOf] at h
    cases i with
    | zero => simp
    | succ i => simpa using leastOf_none h i p

theorem leastOf_some : ∀ {ps : List (Option Pos)} {q : Nat}, leastOf ps = some q →
    (∃ i : Nat, ps[i]? = some (some (Pos.at q))) ∧ ∀ (i p : Nat), ps[i]? = some (some (Pos.at p)) → q ≤ p
  | [], q, h => by simp [leastOf] at h
  | none :: ps, q, h => by
    simp only [leastOf] at h
    obtain ⟨⟨i, hi⟩, hl⟩ := leastOf_some h
    refine ⟨⟨i + 1, by simpa using hi⟩, ?_⟩
    intro j p hj
    cases j with
    | zero => simp at hj
    | succ j => exact hl j p (by simpa using hj)
  | some (Pos.at p) :: ps, q, h => by
    simp only [leastOf] at h
    cases hr : leastOf ps with
    | some r =>
      rw [hr] at h
      simp only [Option.some.injEq] at h
      obtain ⟨⟨i, hi⟩, hl⟩ := leastOf_some hr
      refine ⟨?_, ?_⟩
      · by_cases hpr : p ≤ r
        · exact ⟨0, by simp; omega⟩
        · exact ⟨i + 1, by simp [hi]; omega⟩
      · intro j p' hj
        cases j with
        | zero => simp at hj; omega
        | succ j =>
          have := hl j p' (by simpa using hj)
          omega
    | none =>
      rw [hr] at h
      simp only [Option.some.injEq] at h
      refine ⟨⟨0, by simp [h]⟩, ?_⟩
      intro j p' hj
      cases j with
      | zero => simp at hj; omega
      | succ j => exact absurd (by simpa using hj) (leastOf_none hr j p')
  | some .ended :: ps, q, h => by
    simp only [leastOf] at h
    obtain ⟨⟨i, hi⟩, hl⟩ := leastOf_some h
    refine ⟨⟨i + 1, by simpa using hi⟩, ?_⟩
    intro j p hj
    cases j with
    | zero => simp at hj
    | succ j => exact hl j p (by simpa using hj)
  | some .null :: ps, q, h => by
    simp only [leastOf] at h
    obtain ⟨⟨i, hi⟩, hl⟩ := leastOf_some h
    refine ⟨⟨i + 1, by simpa using hi⟩, ?_⟩
    intro j p hj
    cases j with
    | zero => simp at hj
    | succ j => exact hl j p (by simpa using hj)
  | some .master :: ps, q, h => by
    simp only [leastOf] at h
    obtain ⟨⟨i, hi⟩, hl⟩ := leastOf_some h
    refine ⟨⟨i + 1, by simpa using hi⟩, ?_⟩
    intro j p hj
    cases j with
    | zero => simp at hj
    | succ j => exact hl j p (by simpa using hj)
theorem leastOf_isSome {ps : List (Option Pos)} {i p : Nat} (h : ps[i]? = some (some (Pos.at p))) :
    ∃ q, leastOf ps = some q := by
  cases hl : leastOf ps with
  | some q => exact ⟨q, rfl⟩
  | none => exact absurd h (leastOf_none hl i p)

/-! ## The invariant -/

/-- How an iterator holds what it stands for: `b` characters have left the buffer, which holds
the `len` characters after them.  `ex`: this iterator may be at the end of the buffer. -/
def RelIt (b len : Nat) (ex : Prop) : Option It → Option Pos → Prop
  | none, none => True
  | some it, some (Pos.at p) =>
    it = ⟨false, true, p - b, true⟩ ∧ b ≤ p ∧ (p < b + len ∨ ex ∧ p = b + len)
  | some it, some .ended => it.master = false ∧ it.index = npos ∧ it.shared = true
  | some it, some .null => it = ⟨false, false, npos, false⟩
  | some it, some .master => it = ⟨true, false, npos, true⟩
  | _, _ => False

/-- An iterator that holds the shared object. -/
def holds : Option It → Bool
  | some it => it.shared
  | none => false

/-- An iterator that is in the list of clients. -/
def listed : Option It → Bool
  | some it => it.live || it.master
  | none => false

/-- The invariant, while there is a shared object. -/
structure Inv (text : List Nat) (x : Option Nat) (b : Nat) (its : List (Option It)) (S : Shared)
    (s : Ideal) : Prop where
  len : its.length = s.pos.length
  rel : ∀ i, RelIt b S.len (x = some i) its[i]?.join s.pos[i]?.join
  buf : S.buffer.take S.len = (text.drop b).take S.len
  le : b + S.len ≤ text.length
  size : S.len ≤ S.buffer.length
  stream : S.stream = text.drop (b + S.len)
  full : S.stream ≠ [] → S.len = S.buffer.length
  nodup : S.clients.Nodup
  mem : ∀ c, c ∈ S.clients ↔ listed its[c]?.join = true
  ref : its.countP holds ≤ S.ref
  inc : 0 < S.increment
  fresh : s.fresh = true → b = 0 ∧ 0 < S.len ∧ ∀ (i p : Nat), s.pos[i]? ≠ some (some (Pos.at p))
  bound : text.length < npos

theorem join_some {α} {o : Option (Option α)} {a : α} : o.join = some a ↔ o = some (some a) := by
  rcases o with _ | _ | a <;> simp

theorem getIt_join {its : List (Option It)} {i : Nat} {it : It} (h : its[i]?.join = some it) :
    getIt its i = .ok it := by
  have h := join_some.mp h
  simp [getIt, h]

theorem indexes_ok {its : List (Option It)} {f : Nat → Nat} : ∀ {cs : List Nat},
    (∀ c ∈ cs, ∃ it, its[c]?.join = some it ∧ it.index = f c) → indexes its cs = .ok (cs.map f)
  | [], _ => rfl
  | c :: cs, h => by
    obtain ⟨it, h1, h2⟩ := h c (by simp)
    have ih := indexes_ok (cs := cs) (fun c hc => h c (by simp [hc]))
    simp only [indexes, getIt_join h1, ih, bind, Except.bind, h2, List.map_cons]

/-- The index of an iterator. -/
def idx (its : List (Option It)) (c : Nat) : Nat :=
  match its[c]?.join with
  | some it => it.index
  | none => npos

theorem Inv.indexes_eq {text : List Nat} {x : Option Nat} {b : Nat} {its : List (Option It)} {S : Shared}
    {s : Ideal} (I : Inv text x b its S s) :
    indexes its S.clients = .ok (S.clients.map (idx its)) := by
  apply indexes_ok
  intro c hc
  have := (I.mem c).mp hc
  cases h : its[c]?.join with
  | none => simp [h, listed] at this
  | some it => exact ⟨it, rfl, by simp [idx, h]⟩

theorem Inv.at_rel {text : List Nat} {x : Option Nat} {b : Nat} {its : List (Option It)} {S : Shared}
    {s : Ideal} (I : Inv text x b its S s) {i p : Nat}
    (h : s.pos[i]? = some (some (Pos.at p))) :
    its[i]?.join = some ⟨false, true, p - b, true⟩ ∧ b ≤ p ∧
      (p < b + S.len ∨ x = some i ∧ p = b + S.len) := by
  have hr := I.rel i
  rw [h] at hr
  cases hi : its[i]?.join with
  | none => rw [hi] at hr; exact hr.elim
  | some it =>
    rw [hi] at hr
    simp only [Option.join, RelIt] at hr
    exact ⟨by rw [hr.1], hr.2.1, hr.2.2⟩

/-- A client has a position, or the index that stands for none. -/
theorem Inv.idx_cases {text : List Nat} {x : Option Nat} {b : Nat} {its : List (Option It)} {S : Shared}
    {s : Ideal} (I : Inv text x b its S s) (i : Nat) :
    (∃ p, s.pos[i]? = some (some (Pos.at p)) ∧ idx its i = p - b) ∨
      ((∀ p, s.pos[i]? ≠ some (some (Pos.at p))) ∧ idx its i = npos) := by
  have hr := I.rel i
  cases hp : s.pos[i]?.join with
  | none =>
    rw [hp] at hr
    right
    refine ⟨fun p h => by simp [h] at hp, ?_⟩
    cases hi : its[i]?.join with
    | none => simp [idx, hi]
    | some it => rw [hi] at hr; exact hr.elim
  | some p =>
    rw [hp] at hr
    have hp' := join_some.mp hp
    cases hi : its[i]?.join with
    | none => rw [hi] at hr; cases p <;> exact hr.elim
    | some it =>
      rw [hi] at hr
      cases p with
      | «at» p => left; exact ⟨p, hp', by simp [idx, hi, hr.1]⟩
      | ended => right; exact ⟨by simp [hp'], by simp [idx, hi, hr.2.1]⟩
      | null => right; simp only [RelIt] at hr; exact ⟨by simp [hp'], by simp [idx, hi, hr]⟩
      | master => right; simp only [RelIt] at hr; exact ⟨by simp [hp'], by simp [idx, hi, hr]⟩

theorem Inv.at_client {text : List Nat} {x : Option Nat} {b : Nat} {its : List (Option It)} {S : Shared}
    {s : Ideal} (I : Inv text x b its S s) {i p : Nat}
    (h : s.pos[i]? = some (some (Pos.at p))) : i ∈ S.clients := by
  rw [I.mem, (I.at_rel h).1]
  rfl

theorem Inv.lowest_eq {text : List Nat} {x : Option Nat} {b : Nat} {its : List (Option It)} {S : Shared}
    {s : Ideal} (I : Inv text x b its S s) :
    lowest its S = .ok (match leastOf s.pos with | some q => q - b | none => 0) := by
  unfold Stream.lowest
  rw [I.indexes_eq]
  simp only [bind, Except.bind]
  congr 1
  cases hl : leastOf s.pos with
  | none =>
    apply lowestOf_none
    intro i hi
    obtain ⟨c, _, rfl⟩ := List.mem_map.mp hi
    rcases I.idx_cases c with ⟨p, hp, _⟩ | ⟨_, h⟩
    · exact absurd hp (leastOf_none hl c p)
    · exact h
  | some q =>
    obtain ⟨⟨j, hj⟩, hq⟩ := leastOf_some hl
    have hr := I.at_rel hj
    have hle := I.le
    have hbd := I.bound
    show lowestOf _ = q - b
    apply lowestOf_some
    · refine List.mem_map.mpr ⟨j, I.at_client hj, ?_⟩
      simp [idx, hr.1]
    · omega
    · intro i hi
      obtain ⟨c, _, rfl⟩ := List.mem_map.mp hi
      rcases I.idx_cases c with ⟨p, hp, h⟩ | ⟨_, h⟩
      · have := hq c p hp
        omega
      · omega

/-! ## subtract -/

/-- An iterator after `subtract`. -/
def sub (lo : Nat) (it : It) : It := if it.index = npos then it else { it with index := it.index - lo }

theorem wrap_sub {i lo N : Nat} (h1 : lo ≤ i) (h2 : i < N) : (i + N - lo) % N = i - lo := by
  have : i + N - lo = (i - lo) + N := by omega
  rw [this, Nat.add_mod_right, Nat.mod_eq_of_lt (by omega)]

theorem subtract_ok {lo : Nat} : ∀ {cs : List Nat} {its : List (Option It)}, cs.Nodup →
    (∀ c ∈ cs, ∃ it, its[c]?.join = some it ∧ it.index ≤ npos ∧ (it.index ≠ npos → lo ≤ it.index)) →
    ∃ its', subtract lo cs its = .ok its' ∧ its'.length = its.length ∧
      ∀ j, its'[j]?.join = if j ∈ cs then its[j]?.join.map (sub lo) else its[j]?.join
  | [], its, _, _ => ⟨its, rfl, rfl, by simp⟩
  | c :: cs, its, hn, h => by
    obtain ⟨hc, hn⟩ := List.nodup_cons.mp hn
    obtain ⟨it, hit, hle, hlo⟩ := h c (by simp)
    have hclt : c < its.length := by
      have := join_some.mp hit
      exact (List.getElem?_eq_some_iff.mp this).1
    let its1 := if it.index ≠ npos then
        its.set c (some { it with index := (it.index + (npos + 1) - lo) % (npos + 1) }) else its
    have hl1 : its1.length = its.length := by
      simp only [its1]; split <;> simp
    have h1 : ∀ j, its1[j]?.join = if j = c then some (sub lo it) else its[j]?.join := by
      intro j
      simp only [its1]
      by_cases hi : it.index = npos
      · rw [if_neg (by simp [hi])]
        split
        · next e => subst e; rw [hit]; simp [sub, hi]
        · rfl
      · rw [if_pos hi, List.getElem?_set]
        split
        · next e =>
          subst e
          rw [wrap_sub (hlo hi) (by omega)]
          simp [sub, hi]
        · next e => rw [if_neg (fun h => e h.symm)]
    have hcs : ∀ d ∈ cs, ∃ it, its1[d]?.join = some it ∧ it.index ≤ npos ∧
        (it.index ≠ npos → lo ≤ it.index) := by
      intro d hd
      have hdc : d ≠ c := fun e => hc (e ▸ hd)
      rw [h1, if_neg hdc]
      exact h d (by simp [hd])
    obtain ⟨its', hs, hl, hj⟩ := subtract_ok (its := its1) hn hcs
    refine ⟨its', ?_, hl.trans hl1, ?_⟩
    · simp only [subtract, getIt_join hit, bind, Except.bind]
      exact hs
    · intro j
      rw [hj, h1]
      by_cases e : j = c
      · subst e
        simp [hc, hit]
      · simp [e]

theorem countP_join {p : Option It → Bool} (hp : p none = false) {a b : List (Option It)}
    (hl : a.length = b.length) (h : ∀ j : Nat, p a[j]?.join = p b[j]?.join) :
    a.countP p = b.countP p := by
  have hm : a.map p = b.map p := by
    apply List.ext_getElem?
    intro j
    have := h j
    simp only [List.getElem?_map]
    by_cases hj : j < a.length
    · have hj' : j < b.length := hl ▸ hj
      rw [List.getElem?_eq_getElem hj, List.getElem?_eq_getElem hj'] at this ⊢
      simpa using this
    · have hj' : ¬ j < b.length := hl ▸ hj
      rw [List.getElem?_eq_none (by omega), List.getElem?_eq_none (by omega)]
  have e : ∀ l : List (Option It), l.countP p = (l.map p).countP id := by
    intro l; rw [List.countP_map]; rfl
  rw [e a, e b, hm]

/-! ## Reloading the buffer -/

theorem take_more {α} (T : List α) (m k : Nat) :
    T.take (m + k) = T.take m ++ (T.drop m).take k := by
  rw [List.take_add]

theorem Inv.reload_eq {text : List Nat} {b i : Nat} {its : List (Option It)} {S : Shared}
    {s : Ideal} (I : Inv text (some i) b its S s)
    (hi : s.pos[i]? = some (some (Pos.at (b + S.len)))) (hf : s.fresh = false) :
    ∃ its' S' r b', Stream.reload false its S = .ok (its', S', r) ∧
      (r = true → Inv text none b' its' S' s) ∧ (r = true ↔ b + S.len < text.length) ∧
      (r = false → Inv text (some i) b' its' S' s ∧ b' + S'.len = text.length) := by
  obtain ⟨q, hq⟩ := leastOf_isSome hi
  obtain ⟨⟨j, hj⟩, hql⟩ := leastOf_some hq
  have hjr := I.at_rel hj
  have hle := I.le
  have hbd := I.bound
  have hsz := I.size
  have hqi := hql i _ hi
  have hlo : Stream.lowest its S = .ok (q - b) := by rw [I.lowest_eq, hq]
  have hbuf : S.buffer.take S.len = (text.drop b).take S.len := I.buf
  have hst := I.stream
  by_cases h0 : q - b = 0
  · -- nothing can leave the buffer
    have hb : q = b := by omega
    unfold Stream.reload
    simp only [hlo, bind, Except.bind]
    rw [if_pos h0]
    by_cases hc : (S.stream.take S.increment).length = 0
    · have hse : S.stream = [] := by
        cases hs : S.stream with
        | nil => rfl
        | cons c cs =>
          have := I.inc
          rw [hs, List.length_take] at hc
          simp at hc
          omega
      have hend : b + S.len = text.length := by
        rw [hse] at hst
        have := congrArg List.length hst
        simp at this
        omega
      simp only [hc, ne_eq, not_true_eq_false, if_false]
      refine ⟨its, _, false, b, rfl, by simp, by simp; omega, fun _ => ⟨?_, hend⟩⟩
      exact {
        len := I.len, rel := I.rel, le := I.le, nodup := I.nodup, mem := I.mem, ref := I.ref
        inc := I.inc, fresh := by simp [hf], bound := I.bound
        buf := by
          show ((S.buffer ++ _ ++ _).take S.len) = _
          rw [List.append_assoc, List.take_append_of_le_length hsz, hbuf]
        size := by
          show S.len ≤ (S.buffer ++ _ ++ _).length
          simp only [List.length_append]; omega
        stream := by
          show S.stream.drop _ = _
          rw [hse] at hst ⊢
          simpa using hst
        full := by
          intro h
          exact absurd (by show S.stream.drop _ = []; rw [hse]; simp) h }
    · have hse : S.stream ≠ [] := by
        intro h
        rw [h] at hc
        simp at hc
      have hfull := I.full hse
      have hlt : b + S.len < text.length := by
        rcases Nat.lt_or_ge (b + S.len) text.length with h | h
        · exact h
        · exact absurd (hst.trans (List.drop_eq_nil_of_le h)) hse
      rw [if_pos hc]
      have hbuf' : S.buffer = (text.drop b).take S.len := by
        rw [← hbuf, hfull, List.take_length]
      refine ⟨its, _, true, b, rfl, fun _ => ?_, by simp [hlt], by simp⟩
      have hcl : (S.stream.take S.increment).length = min S.increment (text.length - (b + S.len)) := by
        rw [hst]; simp
      exact {
        len := I.len, le := by simp only [hcl]; omega
        nodup := I.nodup, mem := I.mem, ref := I.ref
        inc := I.inc, fresh := by simp [hf], bound := I.bound
        rel := by
          intro k
          have hr := I.rel k
          simp only
          revert hr
          cases its[k]?.join <;> rcases s.pos[k]?.join with _ | p
          · exact id
          · exact id
          · exact id
          · cases p with
            | «at» p =>
              rintro ⟨h1, h2, h3⟩
              refine ⟨h1, h2, Or.inl ?_⟩
              omega
            | ended => exact id
            | null => exact id
            | master => exact id
        buf := by
          show ((S.buffer ++ S.stream.take S.increment ++ _).take ((S.stream.take S.increment).length + S.buffer.length)) = (text.drop b).take _
          rw [List.take_append_of_le_length (by rw [List.length_append]; omega)]
          rw [List.take_of_length_le (by rw [List.length_append]; omega)]
          rw [Nat.add_comm, ← hfull, take_more, ← hbuf', List.drop_drop, ← hst]
          congr 1
          rw [List.length_take, ← List.take_take]
          simp
        size := by
          show _ ≤ (S.buffer ++ _ ++ _).length
          simp only [List.length_append]; omega
        stream := by
          show S.stream.drop _ = text.drop (b + (_ + _))
          rw [hcl, hst, List.drop_drop, ← hfull]
          by_cases hm : S.increment ≤ text.length - (b + S.len)
          · congr 1; omega
          · rw [List.drop_eq_nil_of_le (by omega), List.drop_eq_nil_of_le (by omega)]
        full := by
          intro h
          have h : S.stream.drop S.increment ≠ [] := h
          have hlen : S.increment < S.stream.length := by
            rcases Nat.lt_or_ge S.increment S.stream.length with h' | h'
            · exact h'
            · exact absurd (List.drop_eq_nil_of_le h') h
          show (S.stream.take S.increment).length + S.buffer.length = (S.buffer ++ _ ++ _).length
          simp only [List.length_append, List.length_take, List.length_replicate]
          omega }
  · -- the first characters leave the buffer
    have hlow : q - b ≤ S.len := by omega
    have hcond : ∀ c ∈ S.clients, ∃ it, its[c]?.join = some it ∧ it.index ≤ npos ∧
        (it.index ≠ npos → q - b ≤ it.index) := by
      intro c hc
      have hm := (I.mem c).mp hc
      cases hit : its[c]?.join with
      | none => rw [hit] at hm; simp [listed] at hm
      | some it =>
        refine ⟨it, rfl, ?_⟩
        have hidx : idx its c = it.index := by simp [idx, hit]
        rcases I.idx_cases c with ⟨p, hp, h⟩ | ⟨_, h⟩
        · have hpr := I.at_rel hp
          have := hql c p hp
          have hpx := hpr.2.2
          constructor
          · omega
          · intro _; omega
        · constructor
          · omega
          · intro hne; omega
    obtain ⟨its', hsub, hlen', hits'⟩ := subtract_ok I.nodup hcond
    -- the iterators afterwards
    have hrel : ∀ (ex : Nat → Prop) (len' : Nat),
        (∀ k p, s.pos[k]? = some (some (Pos.at p)) → p < (b + (q - b)) + len' ∨ ex k ∧ p = (b + (q - b)) + len') →
        ∀ k, RelIt (b + (q - b)) len' (ex k) its'[k]?.join s.pos[k]?.join := by
      intro ex len' hx k
      rw [hits']
      have hr := I.rel k
      have hm := I.mem k
      cases hp : s.pos[k]?.join with
      | none =>
        rw [hp] at hr
        cases hit : its[k]?.join with
        | none => split <;> trivial
        | some it => rw [hit] at hr; exact hr.elim
      | some p =>
        rw [hp] at hr
        cases hit : its[k]?.join with
        | none => rw [hit] at hr; cases p <;> exact hr.elim
        | some it =>
          rw [hit] at hr hm
          cases p with
          | «at» p =>
            have hp' := join_some.mp hp
            have hpq := hql k p hp'
            have hat := I.at_rel hp'
            rw [if_pos (I.at_client hp')]
            refine ⟨?_, by omega, hx k p hp'⟩
            rw [hr.1]
            simp only [sub]
            rw [if_neg (by omega)]
            simp only [It.mk.injEq, true_and, and_true]
            omega
          | ended =>
            simp only [RelIt] at hr
            split
            · simpa [RelIt, sub, hr.2.1] using hr
            · exact hr
          | null =>
            simp only [RelIt] at hr
            rw [hr] at hm
            rw [if_neg (by rw [hm]; simp [listed])]
            exact hr
          | master =>
            simp only [RelIt] at hr
            split
            · simp [RelIt, sub, hr]
            · exact hr
    have hcount : its'.countP holds = its.countP holds := by
      apply countP_join rfl hlen'
      intro k
      rw [hits']
      split
      · cases its[k]?.join with
        | none => rfl
        | some it => simp only [Option.map_some, holds, sub]; split <;> rfl
      · rfl
    have hmem : ∀ c, c ∈ S.clients ↔ listed its'[c]?.join = true := by
      intro c
      refine (I.mem c).trans ?_
      rw [hits']
      split
      · cases its[c]?.join with
        | none => simp
        | some it => simp only [Option.map_some, listed, sub]; split <;> simp
      · exact Iff.rfl
    unfold Stream.reload
    simp only [hlo, bind, Except.bind]
    rw [if_neg h0, if_neg (by omega), if_neg (by simp)]
    simp only [hsub]
    by_cases hc : (S.stream.take (q - b)).length = 0
    · have hse : S.stream = [] := by
        cases hs : S.stream with
        | nil => rfl
        | cons c cs =>
          rw [hs, List.length_take] at hc
          simp at hc
          omega
      have hend : b + S.len = text.length := by
        rw [hse] at hst
        have := congrArg List.length hst
        simp at this
        omega
      rw [if_neg (not_not_intro hc)]
      have hir := I.at_rel hi
      have hhi : highest its' { S with
          buffer := S.buffer.drop (q - b) ++ S.stream.take (q - b) ++ S.buffer.drop (S.buffer.length - (q - b) + (S.stream.take (q - b)).length)
          stream := S.stream.drop (q - b) } = .ok (S.len - (q - b)) := by
        unfold highest
        have hin : indexes its' S.clients = .ok (S.clients.map (idx its')) := by
          apply indexes_ok
          intro c hc
          have := (hmem c).mp hc
          cases h : its'[c]?.join with
          | none => simp [h, listed] at this
          | some it => exact ⟨it, rfl, by simp [idx, h]⟩
        simp only [hin, bind, Except.bind]
        congr 1
        have hidx : ∀ c ∈ S.clients, idx its' c = npos ∨ ∃ p, s.pos[c]? = some (some (Pos.at p)) ∧ idx its' c = p - b - (q - b) := by
          intro c hc
          have hi' := hits' c
          rw [if_pos hc] at hi'
          rcases I.idx_cases c with ⟨p, hp, h⟩ | ⟨_, h⟩
          · right
            refine ⟨p, hp, ?_⟩
            have hat := I.at_rel hp
            have hpx := hat.2.2
            rw [hat.1] at hi'
            simp only [idx, hi', Option.map_some, sub]
            rw [if_neg (by omega)]
          · left
            simp only [idx] at h ⊢
            rw [hi']
            cases hit : its[c]?.join with
            | none => simp
            | some it => rw [hit] at h; simp only at h; simp [sub, h]
        apply highestOf_some
        · refine List.mem_map.mpr ⟨i, I.at_client hi, ?_⟩
          rcases hidx i (I.at_client hi) with h | ⟨p, hp, h⟩
          · have hi' := hits' i
            rw [if_pos (I.at_client hi), hir.1] at hi'
            simp only [idx, hi', Option.map_some, sub]
            rw [if_neg (by omega)]
            simp only
            omega
          · have : p = b + S.len := by rw [hi] at hp; simpa using hp.symm
            rw [h]; omega
        · omega
        · intro k hk hne
          obtain ⟨c, hc, rfl⟩ := List.mem_map.mp hk
          rcases hidx c hc with h | ⟨p, hp, h⟩
          · exact absurd h hne
          · have hat := (I.at_rel hp).2.2
            rw [h]; omega
      simp only [hhi]
      refine ⟨its', _, false, b + (q - b), rfl, by simp, by simp; omega, fun _ => ⟨?_, by simp only; omega⟩⟩
      exact {
        len := hlen'.trans I.len
        rel := by
          apply hrel (fun k => some i = some k)
          intro k p hp
          have hat := (I.at_rel hp).2.2
          simp only
          rcases hat with h | ⟨h, h'⟩
          · left; omega
          · right; exact ⟨h, by omega⟩
        le := by simp only; omega
        nodup := I.nodup
        mem := hmem
        ref := by rw [hcount]; exact I.ref
        inc := I.inc, fresh := by simp [hf], bound := I.bound
        buf := by
          show ((S.buffer.drop (q - b) ++ _ ++ _).take (S.len - (q - b))) = _
          rw [List.append_assoc, List.take_append_of_le_length (by rw [List.length_drop]; omega)]
          rw [← List.drop_take, hbuf, List.drop_take, List.drop_drop]
        size := by
          show _ ≤ (S.buffer.drop (q - b) ++ _ ++ _).length
          simp only [List.length_append, List.length_drop]; omega
        stream := by
          show S.stream.drop _ = text.drop (b + (q - b) + (S.len - (q - b)))
          rw [hse, List.drop_nil, List.drop_eq_nil_of_le (by omega)]
        full := by
          intro h
          exact absurd (by show S.stream.drop _ = []; rw [hse]; simp) h }
    · have hse : S.stream ≠ [] := by
        intro h
        rw [h] at hc
        simp at hc
      have hfull := I.full hse
      have hlt : b + S.len < text.length := by
        rcases Nat.lt_or_ge (b + S.len) text.length with h | h
        · exact h
        · exact absurd (hst.trans (List.drop_eq_nil_of_le h)) hse
      rw [if_pos hc]
      have hbuf' : S.buffer = (text.drop b).take S.len := by
        rw [← hbuf, hfull, List.take_length]
      refine ⟨its', _, true, b + (q - b), rfl, fun _ => ?_, by simp [hlt], by simp⟩
      have hcl : (S.stream.take (q - b)).length = min (q - b) (text.length - (b + S.len)) := by
        rw [hst]; simp
      exact {
        len := hlen'.trans I.len
        rel := by
          apply hrel (fun k => none = some k)
          intro k p hp
          have hat := (I.at_rel hp).2.2
          simp only
          left; omega
        le := by simp only [hcl]; omega
        nodup := I.nodup
        mem := hmem
        ref := by rw [hcount]; exact I.ref
        inc := I.inc, fresh := by simp [hf], bound := I.bound
        buf := by
          show ((S.buffer.drop (q - b) ++ S.stream.take (q - b) ++ _).take ((S.stream.take (q - b)).length + (S.buffer.length - (q - b)))) = (text.drop (b + (q - b))).take _
          rw [List.take_append_of_le_length (by rw [List.length_append, List.length_drop]; omega)]
          rw [List.take_of_length_le (by rw [List.length_append, List.length_drop]; omega)]
          rw [Nat.add_comm, ← hfull, take_more, List.drop_drop]
          congr 1
          · rw [hbuf', List.drop_take, List.drop_drop]
          · have : b + (q - b) + (S.len - (q - b)) = b + S.len := by omega
            rw [this, ← hst]
            rw [List.length_take, ← List.take_take]
            simp
        size := by
          show _ ≤ (S.buffer.drop (q - b) ++ _ ++ _).length
          simp only [List.length_append, List.length_drop]; omega
        stream := by
          show S.stream.drop _ = text.drop (b + (q - b) + (_ + _))
          rw [hcl, hst, List.drop_drop, ← hfull]
          by_cases hm : q - b ≤ text.length - (b + S.len)
          · congr 1; omega
          · rw [List.drop_eq_nil_of_le (by omega), List.drop_eq_nil_of_le (by omega)]
        full := by
          intro h
          have h : S.stream.drop (q - b) ≠ [] := h
          have hlen : q - b < S.stream.length := by
            rcases Nat.lt_or_ge (q - b) S.stream.length with h' | h'
            · exact h'
            · exact absurd (List.drop_eq_nil_of_le h') h
          show (S.stream.take (q - b)).length + (S.buffer.length - (q - b)) = (S.buffer.drop (q - b) ++ _ ++ _).length
          simp only [List.length_append, List.length_take, List.length_drop]
          omega }

end Lexertl.Stream
