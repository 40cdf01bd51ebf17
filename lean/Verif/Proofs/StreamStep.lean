import Verif.Proofs.Stream

namespace Lexertl.Stream

theorem RelIt.mono {b len : Nat} {ex ex' : Prop} {o : Option It} {p : Option Pos} (h : ex → ex')
    (hr : RelIt b len ex o p) : RelIt b len ex' o p := by
  rcases o with _ | it <;> rcases p with _ | p
  · exact hr
  · cases p <;> exact hr
  · exact hr
  · cases p with
    | «at» p =>
      obtain ⟨h1, h2, h3⟩ := hr
      exact ⟨h1, h2, h3.imp_right (fun h' => ⟨h h'.1, h'.2⟩)⟩
    | ended => exact hr
    | null => exact hr
    | master => exact hr

theorem join_set {α} {l : List (Option α)} {i : Nat} (hi : i < l.length) (o : Option α) (k : Nat) :
    (l.set i o)[k]?.join = if k = i then o else l[k]?.join := by
  rw [List.getElem?_set]
  by_cases h : i = k
  · subst h; simp [hi]
  · rw [if_neg h, if_neg (fun e => h e.symm)]

theorem join_append {α} {l : List (Option α)} (o : Option α) (k : Nat) :
    (l ++ [o])[k]?.join = if k = l.length then o else l[k]?.join := by
  by_cases h : k < l.length
  · rw [List.getElem?_append_left h, if_neg (by omega)]
  · rw [List.getElem?_append_right (by omega)]
    by_cases h' : k = l.length
    · subst h'; simp
    · rw [if_neg h', List.getElem?_eq_none (by simp; omega), List.getElem?_eq_none (by omega)]

/-- One iterator changed. -/
theorem Inv.upd {text : List Nat} {x x' : Option Nat} {b : Nat} {its : List (Option It)} {S : Shared}
    {s : Ideal} (I : Inv text x b its S s) {i : Nat} (hi : i < its.length) {o : Option It}
    {p : Option Pos} {cl : List Nat} {ref : Nat} {fr : Bool}
    (hr : RelIt b S.len (x' = some i) o p) (hx : ∀ k, k ≠ i → x = some k → x' = some k)
    (hn : cl.Nodup) (hm : ∀ c, c ∈ cl ↔ if c = i then listed o = true else c ∈ S.clients)
    (hc : (its.set i o).countP holds ≤ ref)
    (hf : fr = true → s.fresh = true ∧ ∀ q, p ≠ some (Pos.at q)) :
    Inv text x' b (its.set i o) { S with clients := cl, ref := ref } ⟨s.pos.set i p, fr⟩ := by
  have hi' : i < s.pos.length := I.len ▸ hi
  exact {
    len := by simp [I.len]
    rel := by
      intro k
      rw [join_set hi, join_set hi']
      split
      · next h => subst h; exact hr
      · next h => exact (I.rel k).mono (hx k h)
    buf := I.buf, le := I.le, size := I.size, stream := I.stream, full := I.full
    nodup := hn
    mem := by
      intro c
      refine (hm c).trans ?_
      rw [join_set hi]
      split
      · exact Iff.rfl
      · exact I.mem c
    ref := hc
    inc := I.inc
    fresh := by
      intro h
      obtain ⟨h1, h2⟩ := hf h
      obtain ⟨h3, h4, h5⟩ := I.fresh h1
      refine ⟨h3, h4, ?_⟩
      intro k q hk
      have hk := join_some.mpr hk
      rw [join_set hi'] at hk
      split at hk
      · exact h2 q hk
      · exact h5 k q (join_some.mp hk)
    bound := I.bound }

/-- One iterator more. -/
theorem Inv.app {text : List Nat} {x : Option Nat} {b : Nat} {its : List (Option It)} {S : Shared}
    {s : Ideal} (I : Inv text x b its S s) {o : Option It}
    {p : Option Pos} {cl : List Nat} {ref : Nat} {fr : Bool}
    (hr : RelIt b S.len False o p)
    (hm : cl = if listed o then S.clients ++ [its.length] else S.clients)
    (hc : (if holds o then S.ref + 1 else S.ref) ≤ ref)
    (hf : fr = true → s.fresh = true ∧ ∀ q, p ≠ some (Pos.at q)) :
    Inv text x b (its ++ [o]) { S with clients := cl, ref := ref } ⟨s.pos ++ [p], fr⟩ := by
  have hnew : its.length ∉ S.clients := by
    intro h
    have := (I.mem _).mp h
    rw [List.getElem?_eq_none (Nat.le_refl _)] at this
    simp [listed] at this
  exact {
    len := by simp [I.len]
    rel := by
      intro k
      rw [join_append, join_append, ← I.len]
      split
      · exact hr.mono False.elim
      · exact I.rel k
    buf := I.buf, le := I.le, size := I.size, stream := I.stream, full := I.full
    nodup := by
      show cl.Nodup
      rw [hm]
      split
      · rw [List.nodup_append]
        refine ⟨I.nodup, by simp, ?_⟩
        intro a ha b hb e
        rw [List.mem_singleton] at hb
        exact hnew (hb ▸ e ▸ ha)
      · exact I.nodup
    mem := by
      intro c
      show c ∈ cl ↔ _
      rw [hm, join_append]
      by_cases hcl : c = its.length
      · rw [if_pos hcl, hcl]
        split
        · next h => simp [h]
        · next h => simp [h, hnew]
      · rw [if_neg hcl]
        split
        · simp [hcl, I.mem c]
        · exact I.mem c
    ref := by
      have := I.ref
      show (its ++ [o]).countP holds ≤ ref
      rw [List.countP_append, List.countP_singleton]
      cases h : holds o <;> simp [h] at hc ⊢ <;> omega
    inc := I.inc
    fresh := by
      intro h
      obtain ⟨h1, h2⟩ := hf h
      obtain ⟨h3, h4, h5⟩ := I.fresh h1
      refine ⟨h3, h4, ?_⟩
      intro k q hk
      have hk := join_some.mpr hk
      rw [join_append] at hk
      split at hk
      · exact h2 q hk
      · exact h5 k q (join_some.mp hk)
    bound := I.bound }

theorem Inv.get {text : List Nat} {x : Option Nat} {b : Nat} {its : List (Option It)} {S : Shared}
    {s : Ideal} (I : Inv text x b its S s) {i : Nat} {P : Pos} (h : s.pos[i]? = some (some P)) :
    ∃ it, its[i]? = some (some it) ∧ i < its.length ∧
      RelIt b S.len (x = some i) (some it) (some P) := by
  have hr := I.rel i
  rw [h] at hr
  cases hi : its[i]?.join with
  | none => rw [hi] at hr; cases P <;> exact hr.elim
  | some it =>
    rw [hi] at hr
    have := join_some.mp hi
    exact ⟨it, this, (List.getElem?_eq_some_iff.mp this).1, hr⟩

theorem getIt_ok {its : List (Option It)} {i : Nat} {it : It} (h : its[i]? = some (some it)) :
    getIt its i = .ok it := getIt_join (join_some.mpr h)

/-- The holders after one iterator has changed. -/
theorem count_set {its : List (Option It)} {i : Nat} {it : It} {o : Option It} {ref ref' : Nat}
    (h : its[i]? = some (some it)) (hr : its.countP holds ≤ ref)
    (hle : ref + (if holds o then 1 else 0) ≤ ref' + (if it.shared then 1 else 0)) :
    (its.set i o).countP holds ≤ ref' := by
  obtain ⟨hi, he⟩ := List.getElem?_eq_some_iff.mp h
  rw [List.countP_set hi, he]
  have hp : (if it.shared = true then 1 else 0) ≤ its.countP holds := by
    have := List.boole_getElem_le_countP (p := holds) hi
    rw [he] at this
    exact this
  show (its.countP holds - if it.shared = true then 1 else 0) + _ ≤ _
  omega

/-- How a world holds what its iterators stand for. -/
def Good (text : List Nat) (w : World) (s : Ideal) : Prop :=
  match w.shared with
  | some S => ∃ b, Inv text none b w.its S s
  | none => w.its.length = s.pos.length ∧ ∀ i : Nat,
      (w.its[i]?.join = none ∧ s.pos[i]?.join = none) ∨
      (w.its[i]?.join = some ⟨false, false, npos, false⟩ ∧ s.pos[i]?.join = some Pos.null)

/-- The clients when one is as it was. -/
theorem mem_keep {cl : List Nat} {i : Nat} {o : Bool} (h : i ∈ cl ↔ o = true) (c : Nat) :
    c ∈ cl ↔ if c = i then o = true else c ∈ cl := by
  split
  · next e => subst e; exact h
  · exact Iff.rfl

theorem mem_erase {cl : List Nat} (hn : cl.Nodup) {i : Nat} (c : Nat) {o : Bool} (ho : o = false) :
    c ∈ cl.erase i ↔ if c = i then o = true else c ∈ cl := by
  rw [hn.mem_erase_iff]
  split
  · next e => simp [e, ho]
  · next e => simp [e]

theorem mem_add {cl : List Nat} {i : Nat} (c : Nat) {o : Bool} (ho : o = true) :
    c ∈ cl ++ [i] ↔ if c = i then o = true else c ∈ cl := by
  rw [List.mem_append, List.mem_singleton]
  split
  · next e => simp [e, ho]
  · next e => simp [e]

theorem nodup_add {cl : List Nat} (hn : cl.Nodup) {i : Nat} (hi : i ∉ cl) : (cl ++ [i]).Nodup := by
  rw [List.nodup_append]
  refine ⟨hn, by simp, ?_⟩
  intro a ha b hb e
  rw [List.mem_singleton] at hb
  exact hi (hb ▸ e ▸ ha)

/-- The position a copy of the master has. -/
theorem Inv.begin_eq {text : List Nat} {b : Nat} {its : List (Option It)} {S : Shared}
    {s : Ideal} (I : Inv text none b its S s) {p : Nat} (h : s.begin = some p) :
    lowest its S = .ok (p - b) ∧ b ≤ p ∧ p < b + S.len := by
  unfold Ideal.begin at h
  rw [I.lowest_eq]
  by_cases hf : s.fresh = true
  · rw [if_pos hf] at h
    obtain ⟨h1, h2, h3⟩ := I.fresh hf
    simp only [Option.some.injEq] at h
    have hn : leastOf s.pos = none := by
      cases hl : leastOf s.pos with
      | none => rfl
      | some q => obtain ⟨⟨j, hj⟩, _⟩ := leastOf_some hl; exact absurd hj (h3 j q)
    rw [hn]
    refine ⟨by simp [← h], by omega, by omega⟩
  · rw [if_neg hf] at h
    obtain ⟨⟨j, hj⟩, _⟩ := leastOf_some h
    obtain ⟨h1, h2, h3⟩ := I.at_rel hj
    rw [h]
    refine ⟨rfl, h2, ?_⟩
    rcases h3 with h3 | ⟨h3, _⟩
    · exact h3
    · simp at h3

/-- With a shared object, the master becomes an iterator at a position. -/
theorem Inv.checkMaster_master {text : List Nat} {b : Nat} {its : List (Option It)} {S : Shared}
    {s : Ideal} (I : Inv text none b its S s) {i p : Nat} (h : s.pos[i]? = some (some Pos.master))
    (hp : s.begin = some p) :
    ∃ its', checkMaster ⟨its, some S⟩ i = .ok ⟨its', some S⟩ ∧
      Inv text none b its' S ⟨s.pos.set i (some (Pos.at p)), false⟩ := by
  obtain ⟨it, hit, hi, hr⟩ := I.get h
  simp only [RelIt] at hr
  obtain ⟨hl, hb, hlt⟩ := I.begin_eq hp
  refine ⟨its.set i (some ⟨false, true, p - b, true⟩), ?_, ?_⟩
  · simp only [checkMaster, getIt_ok hit, bind, Except.bind, hr, World.getShared, hl]
    rfl
  · refine I.upd (S := S) (cl := S.clients) (ref := S.ref) hi ⟨rfl, hb, Or.inl hlt⟩ (by simp) I.nodup ?_ ?_ (by simp)
    · refine mem_keep ?_
      rw [I.mem, hit, hr]
      simp [listed]
    · exact count_set hit I.ref (by simp [holds, hr])

theorem Inv.checkMaster_at {text : List Nat} {x : Option Nat} {b : Nat} {its : List (Option It)} {S : Shared}
    {s : Ideal} (I : Inv text x b its S s) {i p : Nat} (h : s.pos[i]? = some (some (Pos.at p))) :
    checkMaster ⟨its, some S⟩ i = .ok ⟨its, some S⟩ := by
  obtain ⟨it, hit, hi, hr⟩ := I.get h
  simp only [checkMaster, getIt_ok hit, bind, Except.bind, hr.1]
  rfl

/-- Dereferencing an iterator at a position. -/
theorem Inv.deref_at {text : List Nat} {b : Nat} {its : List (Option It)} {S : Shared}
    {s : Ideal} (I : Inv text none b its S s) {i p : Nat} (h : s.pos[i]? = some (some (Pos.at p))) :
    ∃ it c, getIt its i = .ok it ∧ text[p]? = some c ∧ S.buffer[it.index]? = some c := by
  obtain ⟨it, hit, hi, hr⟩ := I.get h
  obtain ⟨h1, h2, h3⟩ := hr
  have h3 : p < b + S.len := by
    rcases h3 with h3 | ⟨h3, _⟩
    · exact h3
    · simp at h3
  have hle := I.le
  have hp : p < text.length := by omega
  refine ⟨it, text[p], getIt_ok hit, List.getElem?_eq_getElem hp, ?_⟩
  have hb := congrArg (fun l => l[p - b]?) I.buf
  simp only [List.getElem?_take] at hb
  rw [if_pos (by omega), if_pos (by omega), List.getElem?_drop] at hb
  rw [h1]
  simp only
  rw [hb, ← List.getElem?_eq_getElem hp]
  congr 1; omega

/-- Incrementing an iterator at a position. -/
theorem Inv.inc_at {text : List Nat} {b : Nat} {its : List (Option It)} {S : Shared}
    {s : Ideal} (I : Inv text none b its S s) {i p : Nat} (h : s.pos[i]? = some (some (Pos.at p))) :
    ∃ w' it, getIt its i = .ok it ∧
      updateState false ⟨its.set i (some { it with index := (it.index + 1) % (npos + 1) }), some S⟩ i = .ok w' ∧
      Good text w' { s with pos := s.pos.set i (some (Pos.next text p)) } := by
  obtain ⟨it, hit, hi, hr⟩ := I.get h
  obtain ⟨h1, h2, h3⟩ := hr
  have h3 : p < b + S.len := by
    rcases h3 with h3 | ⟨h3, _⟩
    · exact h3
    · simp at h3
  have hle := I.le
  have hbd := I.bound
  have hfr : s.fresh = false := by
    cases hf : s.fresh with
    | false => rfl
    | true => exact absurd h ((I.fresh hf).2.2 i p)
  have hmod : (it.index + 1) % (npos + 1) = p + 1 - b := by
    rw [h1]
    simp only
    rw [Nat.mod_eq_of_lt (by omega)]
    omega
  have hmem : i ∈ S.clients := I.at_client h
  -- the state after the index has grown
  have I' : Inv text (some i) b (its.set i (some ⟨false, true, p + 1 - b, true⟩)) S
      ⟨s.pos.set i (some (Pos.at (p + 1))), false⟩ := by
    refine I.upd (S := S) (cl := S.clients) (ref := S.ref) hi ⟨rfl, by omega, ?_⟩ (by simp) I.nodup ?_ ?_ (by simp)
    · by_cases hlt : p + 1 < b + S.len
      · exact Or.inl hlt
      · exact Or.inr ⟨rfl, by omega⟩
    · exact mem_keep (by simp [hmem, listed])
    · exact count_set hit I.ref (by simp [holds, h1])
  have hi' : i < s.pos.length := I.len ▸ hi
  have hget : (s.pos.set i (some (Pos.at (p + 1))))[i]? = some (some (Pos.at (p + 1))) := by
    simp [List.getElem?_set, hi']
  have hset : its.set i (some { it with index := (it.index + 1) % (npos + 1) }) =
      its.set i (some ⟨false, true, p + 1 - b, true⟩) := by
    rw [hmod, h1]
  have hgi : getIt (its.set i (some ⟨false, true, p + 1 - b, true⟩)) i = .ok ⟨false, true, p + 1 - b, true⟩ := by
    apply getIt_join
    rw [join_set hi, if_pos rfl]
  rw [show ({ s with pos := s.pos.set i (some (Pos.next text p)) } : Ideal) =
    ⟨s.pos.set i (some (Pos.next text p)), false⟩ by rw [← hfr]]
  by_cases hlt : p + 1 < b + S.len
  · refine ⟨⟨its.set i (some ⟨false, true, p + 1 - b, true⟩), some S⟩, it, getIt_ok hit, ?_, ?_⟩
    · rw [hset]
      simp only [updateState, bind, Except.bind, hgi, World.getShared]
      rw [if_neg (by omega)]
    · refine ⟨b, ?_⟩
      have : Pos.next text p = .at (p + 1) := by simp only [Pos.next]; rw [if_pos (by omega)]
      rw [this]
      exact { I' with
        rel := by
          intro k
          have hk := I'.rel k
          by_cases hki : k = i
          · subst hki
            rw [join_set hi, if_pos rfl, hget] at hk ⊢
            exact ⟨rfl, hk.2.1, Or.inl hlt⟩
          · exact hk.mono (by intro e; exact absurd (Option.some.inj e).symm hki) }
  · have he : p + 1 = b + S.len := by omega
    rw [he] at hget I'
    obtain ⟨its', S', r, b', hrl, ht, hiff, hff⟩ := I'.reload_eq hget rfl
    rw [← he] at hget I' hrl ht hiff hff
    by_cases hr : r = true
    · refine ⟨⟨its', some S'⟩, it, getIt_ok hit, ?_, ?_⟩
      · rw [hset]
        simp only [updateState, bind, Except.bind, hgi, World.getShared]
        rw [if_pos (by omega), hrl]
        simp only [hr, if_true]
      · refine ⟨b', ?_⟩
        have : Pos.next text p = .at (p + 1) := by
          simp only [Pos.next]; rw [if_pos (hiff.mp hr)]
        rw [this]
        exact ht hr
    · have hr : r = false := by simpa using hr
      obtain ⟨If, hend⟩ := hff hr
      obtain ⟨jt, hjt, hj, hjr⟩ := If.get hget
      refine ⟨⟨its'.set i (some { jt with index := npos, live := false }),
        some { S' with clients := S'.clients.erase i }⟩, it, getIt_ok hit, ?_, ?_⟩
      · rw [hset]
        simp only [updateState, bind, Except.bind, hgi, World.getShared]
        rw [if_pos (by omega), hrl]
        simp only [hr, Bool.false_eq_true, if_false, getIt_ok hjt]
      · refine ⟨b', ?_⟩
        have : Pos.next text p = .ended := by
          simp only [Pos.next]; rw [if_neg (by rw [← hiff]; simp [hr])]
        rw [this]
        have := If.upd (S := S') (x' := none) (cl := S'.clients.erase i) (ref := S'.ref) (fr := false)
          (o := some { jt with index := npos, live := false }) (p := some Pos.ended) hj
          (by simp [RelIt, hjr.1]) (by intro k hk e; exact absurd (Option.some.inj e).symm hk)
          (If.nodup.erase i) (fun c => mem_erase If.nodup c (by simp [listed, hjr.1]))
          (count_set hjt If.ref (by simp [holds, hjr.1])) (by simp)
        simpa using this

/-- What is known of an iterator that is not the master. -/
theorem RelIt.plain {b len : Nat} {ex : Prop} {it : It} {P : Pos} (h : RelIt b len ex (some it) (some P))
    (hP : P ≠ .master) : it.master = false ∧ (it.live = true → it.shared = true) := by
  cases P with
  | «at» p => obtain ⟨rfl, _⟩ := h; simp
  | ended => exact ⟨h.1, fun _ => h.2.2⟩
  | null => simp only [RelIt] at h; rw [h]; simp
  | master => exact absurd rfl hP

/-- Copy assignment between two iterators that are not the master. -/
theorem Inv.assign_eq {text : List Nat} {b : Nat} {its : List (Option It)} {S : Shared}
    {s : Ideal} (I : Inv text none b its S s) {i j : Nat} {P Q : Pos}
    (hP : s.pos[i]? = some (some P)) (hQ : s.pos[j]? = some (some Q)) (hPm : P ≠ .master)
    (hQm : Q ≠ .master) :
    ∃ w', World.assign ⟨its, some S⟩ i j = .ok w' ∧
      Good text w' { s with pos := s.pos.set i (some Q) } := by
  obtain ⟨it, hit, hi, hr⟩ := I.get hP
  obtain ⟨rhs, hrt, hj, hrr⟩ := I.get hQ
  have hpl := hr.plain hPm
  have hql := hrr.plain hQm
  unfold World.assign
  by_cases hij : i = j
  · subst hij
    rw [if_pos rfl]
    simp only [getIt_ok hit, bind, Except.bind]
    refine ⟨_, rfl, b, ?_⟩
    have : P = Q := by rw [hP] at hQ; simpa using hQ
    subst this
    have he : s.pos.set i (some P) = s.pos := by
      apply List.ext_getElem?
      intro k
      rw [List.getElem?_set]
      split
      · next e =>
        subst e
        rw [if_pos (I.len ▸ hi), hP]
      · rfl
    rw [he]
    exact I
  · rw [if_neg hij]
    simp only [getIt_ok hit, getIt_ok hrt, bind, Except.bind, hql.1, Bool.false_eq_true, if_false, World.getShared]
    have hrhs : (⟨false, rhs.live, rhs.index, rhs.shared⟩ : It) = rhs := by
      obtain ⟨m, l, x, y⟩ := rhs
      simp only [It.mk.injEq, and_true] at hql ⊢
      exact hql.1.symm
    rw [hrhs]
    have hmi : i ∈ S.clients ↔ it.live = true := by
      rw [I.mem, hit]
      simp [listed, hpl.1]
    have hlr : listed (some rhs) = rhs.live := by simp [listed, hql.1]
    have hfr : s.fresh = true → s.fresh = true ∧ ∀ q, some Q ≠ some (Pos.at q) := by
      intro hf
      refine ⟨hf, fun q e => ?_⟩
      exact (I.fresh hf).2.2 j q (by rw [hQ, e])
    have hrel : RelIt b S.len (none = some i) (some rhs) (some Q) := hrr.mono (by simp)
    cases hl : it.live <;> cases hrl : rhs.live
    · simp only [Bool.false_eq_true, not_false_eq_true, and_self, if_true]
      have hk : ∀ c, c ∈ S.clients ↔ if c = i then listed (some rhs) = true else c ∈ S.clients :=
        mem_keep (by rw [hmi, hlr, hl, hrl])
      cases hrs : rhs.shared
      · simp only [Bool.false_eq_true, if_false]
        exact ⟨_, rfl, b, I.upd (S := S) (cl := S.clients) (ref := S.ref) hi hrel (by simp) I.nodup hk
          (count_set hit I.ref (by simp [holds, hrs])) hfr⟩
      · simp only [if_true]
        refine ⟨_, rfl, b, I.upd (S := S) (cl := S.clients) (ref := S.ref + 1) hi hrel (by simp) I.nodup hk
          (count_set hit I.ref (by simp [holds, hrs])) hfr⟩
    · simp only [Bool.false_eq_true, not_false_eq_true, not_true_eq_false, and_true, and_false, if_true, if_false]
      have hrs := hql.2 hrl
      refine ⟨_, rfl, b, I.upd (S := S) hi hrel (by simp) (nodup_add I.nodup (by rw [hmi, hl]; simp))
        (fun c => mem_add c (by rw [hlr, hrl])) ?_ hfr⟩
      apply count_set hit I.ref
      cases it.shared <;> simp [holds, hrs]
    · simp only [Bool.false_eq_true, not_false_eq_true, not_true_eq_false, and_true, false_and, if_true, if_false]
      have his := hpl.2 hl
      refine ⟨_, rfl, b, I.upd (S := S) hi hrel (by simp) (I.nodup.erase i)
        (fun c => mem_erase I.nodup c (by rw [hlr, hrl])) ?_ hfr⟩
      apply count_set hit I.ref
      have hpos : 0 < S.ref := by
        have := List.boole_getElem_le_countP (p := holds) hi
        obtain ⟨hi', he⟩ := List.getElem?_eq_some_iff.mp hit
        rw [he] at this
        have h1 : 1 ≤ its.countP holds := by simpa [holds, his] using this
        exact Nat.lt_of_lt_of_le h1 I.ref
      cases hrs : rhs.shared
      · simp only [holds, hrs, his, decr, if_neg (Nat.ne_of_gt hpos), Bool.false_eq_true, if_true, if_false]; omega
      · simp [holds, hrs, his]
    · simp only [Bool.false_eq_true, not_true_eq_false, false_and, and_false, if_false]
      have hrs := hql.2 hrl
      have his := hpl.2 hl
      exact ⟨_, rfl, b, I.upd (S := S) (cl := S.clients) (ref := S.ref) hi hrel (by simp) I.nodup
        (mem_keep (by rw [hmi, hlr, hl, hrl])) (count_set hit I.ref (by simp [holds, hrs, his])) hfr⟩

theorem itEq_same {text : List Nat} {b : Nat} {its : List (Option It)} {S : Shared}
    {s : Ideal} (I : Inv text none b its S s) {i j : Nat} {a c : It} {P Q : Pos}
    (ha : RelIt b S.len (none = some i) (some a) (some P)) (hc : RelIt b S.len (none = some j) (some c) (some Q))
    (hPm : P ≠ .master) (hQm : Q ≠ .master) : itEq a c = P.same Q := by
  have hle := I.le
  have hbd := I.bound
  have hne : ∀ {p : Nat} {e : Prop}, b ≤ p → (p < b + S.len ∨ e ∧ p = b + S.len) → p - b ≠ npos := by
    intro p e h1 h2; omega
  cases P with
  | master => exact absurd rfl hPm
  | «at» p =>
    obtain ⟨rfl, h2, h3⟩ := ha
    have hn := hne h2 h3
    cases Q with
    | master => exact absurd rfl hQm
    | «at» q =>
      obtain ⟨rfl, h4, h5⟩ := hc
      simp only [itEq, Pos.same, beq_self_eq_true, Bool.true_or, Bool.and_true]
      rw [Bool.eq_iff_iff]
      simp only [beq_iff_eq]
      omega
    | ended =>
      obtain ⟨h4, h5, h6⟩ := hc
      simp [itEq, Pos.same, h5, h6, hn]
    | null => simp only [RelIt] at hc; simp [itEq, Pos.same, hc, hn]
  | ended =>
    obtain ⟨h1, h2, h3⟩ := ha
    cases Q with
    | master => exact absurd rfl hQm
    | «at» q =>
      obtain ⟨rfl, h4, h5⟩ := hc
      have hn := hne h4 h5
      simp [itEq, Pos.same, h2, h3, Ne.symm hn]
    | ended =>
      obtain ⟨h4, h5, h6⟩ := hc
      simp [itEq, Pos.same, h2, h3, h5, h6]
    | null => simp only [RelIt] at hc; simp [itEq, Pos.same, hc, h2, h3]
  | null =>
    simp only [RelIt] at ha
    cases Q with
    | master => exact absurd rfl hQm
    | «at» q =>
      obtain ⟨rfl, h4, h5⟩ := hc
      have hn := hne h4 h5
      simp [itEq, Pos.same, ha, Ne.symm hn]
    | ended =>
      obtain ⟨h4, h5, h6⟩ := hc
      simp [itEq, Pos.same, ha, h5, h6]
    | null => simp only [RelIt] at hc; simp [itEq, Pos.same, hc, ha]

/-- One operation, while there is a shared object. -/
theorem Inv.step_eq {text : List Nat} {b : Nat} {its : List (Option It)} {S : Shared}
    {s s' : Ideal} {o : Output} (I : Inv text none b its S s) {op : Op}
    (h : s.step text op = some (s', o)) :
    ∃ w', World.step false ⟨its, some S⟩ op = .ok (w', o) ∧ Good text w' s' := by
  cases op with
  | default =>
    simp only [Ideal.step, Option.some.injEq, Prod.mk.injEq] at h
    obtain ⟨rfl, rfl⟩ := h
    refine ⟨⟨its ++ [some ⟨false, false, npos, false⟩], some S⟩, by rw [World.step]; simp [I.len], b, ?_⟩
    exact I.app (S := S) (cl := S.clients) (ref := S.ref) rfl (by simp [listed]) (by simp [holds])
      (fun h => ⟨h, by simp⟩)
  | copy i =>
    simp only [Ideal.step] at h
    split at h
    · next hp =>
      obtain ⟨p, hb, he⟩ := Option.map_eq_some_iff.mp h
      simp only [Prod.mk.injEq] at he
      obtain ⟨rfl, rfl⟩ := he
      obtain ⟨it, hit, hi, hr⟩ := I.get hp
      simp only [RelIt] at hr
      obtain ⟨hl, hbp, hlt⟩ := I.begin_eq hb
      refine ⟨⟨its ++ [some ⟨false, true, p - b, true⟩], some { S with ref := S.ref + 1, clients := S.clients ++ [its.length] }⟩, ?_, b, ?_⟩
      · simp only [World.step, World.copy, getIt_ok hit, bind, Except.bind, hr, World.getShared, hl, if_true, ← I.len]
      · exact I.app (S := S) (o := some ⟨false, true, p - b, true⟩) (p := some (Pos.at p)) ⟨rfl, hbp, Or.inl hlt⟩ (by simp [listed]) (by simp [holds]) (by simp)
    · next P hne hp =>
      simp only [Option.some.injEq, Prod.mk.injEq] at h
      obtain ⟨rfl, rfl⟩ := h
      obtain ⟨it, hit, hi, hr⟩ := I.get hp
      have hPm : P ≠ .master := by rintro rfl; exact hne rfl
      have hpl := hr.plain hPm
      have hf : s.fresh = true → s.fresh = true ∧ ∀ q, some P ≠ some (Pos.at q) := by
        intro hf
        refine ⟨hf, fun q e => ?_⟩
        exact (I.fresh hf).2.2 i q (by rw [hp, e])
      cases hs : it.shared
      · refine ⟨⟨its ++ [some ⟨false, false, it.index, false⟩], some S⟩, ?_, b, ?_⟩
        · simp only [World.step, World.copy, getIt_ok hit, bind, Except.bind, hpl.1, hs, Bool.false_eq_true, if_false, ← I.len]
        · refine I.app (S := S) (cl := S.clients) (ref := S.ref) ?_ (by simp [listed]) (by simp [holds]) hf
          cases P with
          | «at» p => obtain ⟨rfl, _⟩ := hr; simp at hs
          | ended => rw [hr.2.2] at hs; simp at hs
          | null => simp only [RelIt] at hr ⊢; rw [hr]
          | master => exact absurd rfl hPm
      · refine ⟨⟨its ++ [some ⟨false, true, it.index, true⟩], some { S with ref := S.ref + 1, clients := S.clients ++ [its.length] }⟩, ?_, b, ?_⟩
        · simp only [World.step, World.copy, getIt_ok hit, bind, Except.bind, hpl.1, hs, Bool.false_eq_true, if_false, if_true, World.getShared, ← I.len]
        · refine I.app (S := S) ?_ (by simp [listed]) (by simp [holds]) hf
          cases P with
          | «at» p =>
            obtain ⟨rfl, h2, h3⟩ := hr
            exact ⟨rfl, h2, h3.imp_right (fun h => by simp at h)⟩
          | ended => exact ⟨rfl, hr.2.1, rfl⟩
          | null => simp only [RelIt] at hr; rw [hr] at hs; simp at hs
          | master => exact absurd rfl hPm
    · simp at h
  | assign i j =>
    simp only [Ideal.step] at h
    split at h
    · simp at h
    · simp at h
    · next P Q hPn hQn hP hQ =>
      simp only [Option.some.injEq, Prod.mk.injEq] at h
      obtain ⟨rfl, rfl⟩ := h
      obtain ⟨w', hw, hg⟩ := I.assign_eq hP hQ (by rintro rfl; exact hPn rfl) (by rintro rfl; exact hQn rfl)
      refine ⟨w', ?_, hg⟩
      simp only [World.step, hw, bind, Except.bind]
    · simp at h
  | inc i =>
    simp only [Ideal.step] at h
    split at h
    · next hp =>
      obtain ⟨p, hb, he⟩ := Option.map_eq_some_iff.mp h
      simp only [Prod.mk.injEq] at he
      obtain ⟨rfl, rfl⟩ := he
      obtain ⟨its', hc, I'⟩ := I.checkMaster_master hp hb
      have hlt : i < s.pos.length := (List.getElem?_eq_some_iff.mp hp).1
      obtain ⟨w', it, hg, hu, hgd⟩ := I'.inc_at (i := i) (p := p) (by simp [List.getElem?_set, hlt])
      refine ⟨w', ?_, ?_⟩
      · simp only [World.step, World.inc, hc, hg, hu, bind, Except.bind]
      · simpa using hgd
    · next p hp =>
      simp only [Option.some.injEq, Prod.mk.injEq] at h
      obtain ⟨rfl, rfl⟩ := h
      obtain ⟨w', it, hg, hu, hgd⟩ := I.inc_at hp
      refine ⟨w', ?_, hgd⟩
      simp only [World.step, World.inc, I.checkMaster_at hp, hg, hu, bind, Except.bind]
    · simp at h
  | deref i =>
    simp only [Ideal.step] at h
    split at h
    · next hp =>
      obtain ⟨p, hb, he⟩ := Option.bind_eq_some_iff.mp h
      obtain ⟨c, hc, he⟩ := Option.map_eq_some_iff.mp he
      simp only [Prod.mk.injEq] at he
      obtain ⟨rfl, rfl⟩ := he
      obtain ⟨its', hck, I'⟩ := I.checkMaster_master hp hb
      have hlt : i < s.pos.length := (List.getElem?_eq_some_iff.mp hp).1
      obtain ⟨it, c', hg, hc', hbuf⟩ := I'.deref_at (i := i) (p := p) (by simp [List.getElem?_set, hlt])
      have : c' = c := by rw [hc] at hc'; simpa using hc'.symm
      subst this
      refine ⟨⟨its', some S⟩, ?_, b, I'⟩
      simp only [World.step, World.deref, hck, hg, bind, Except.bind, World.getShared, hbuf]
    · next p hp =>
      obtain ⟨c, hc, he⟩ := Option.map_eq_some_iff.mp h
      simp only [Prod.mk.injEq] at he
      obtain ⟨rfl, rfl⟩ := he
      obtain ⟨it, c', hg, hc', hbuf⟩ := I.deref_at hp
      have : c' = c := by rw [hc] at hc'; simpa using hc'.symm
      subst this
      refine ⟨⟨its, some S⟩, ?_, b, I⟩
      simp only [World.step, World.deref, I.checkMaster_at hp, hg, bind, Except.bind, World.getShared, hbuf]
    · simp at h
  | eq i j =>
    simp only [Ideal.step] at h
    split at h
    · simp at h
    · simp at h
    · next P Q hPn hQn hP hQ =>
      simp only [Option.some.injEq, Prod.mk.injEq] at h
      obtain ⟨rfl, rfl⟩ := h
      obtain ⟨a, hat, _, har⟩ := I.get hP
      obtain ⟨c, hct, _, hcr⟩ := I.get hQ
      refine ⟨⟨its, some S⟩, ?_, b, I⟩
      simp only [World.step, getIt_ok hat, getIt_ok hct, bind, Except.bind]
      rw [itEq_same I har hcr (by rintro rfl; exact hPn rfl) (by rintro rfl; exact hQn rfl)]
    · simp at h
  | destroy i =>
    simp only [Ideal.step] at h
    split at h
    · next P hP =>
      simp only [Option.some.injEq, Prod.mk.injEq] at h
      obtain ⟨rfl, rfl⟩ := h
      obtain ⟨it, hit, hi, hr⟩ := I.get hP
      have hpos : it.shared = true → 0 < S.ref := by
        intro his
        have := List.boole_getElem_le_countP (p := holds) hi
        obtain ⟨hi', he⟩ := List.getElem?_eq_some_iff.mp hit
        rw [he] at this
        have h1 : 1 ≤ its.countP holds := by simpa [holds, his] using this
        exact Nat.lt_of_lt_of_le h1 I.ref
      have hcnt : (its.set i none).countP holds ≤ S.ref - (if it.shared then 1 else 0) := by
        apply count_set hit I.ref
        cases hs : it.shared
        · simp [holds]
        · have := hpos hs
          simp [holds]; omega
      have hu := fun ref hc => I.upd (S := S) (x' := none) (cl := S.clients.erase i) (ref := ref) (o := none) (p := none) hi trivial
        (by simp) (I.nodup.erase i) (fun c => mem_erase I.nodup c rfl) hc (fun h : s.fresh = true => ⟨h, by simp⟩)
      cases hs : it.shared
      · have hli : i ∉ S.clients := by
          rw [I.mem, hit]
          cases P with
          | «at» p => obtain ⟨rfl, _⟩ := hr; simp at hs
          | ended => rw [hr.2.2] at hs; simp at hs
          | null => simp only [RelIt] at hr; simp [hr, listed]
          | master => simp only [RelIt] at hr; rw [hr] at hs; simp at hs
        refine ⟨⟨its.set i none, some S⟩, ?_, b, ?_⟩
        · simp only [World.step, World.destroy, getIt_ok hit, hs, bind, Except.bind, Bool.false_eq_true, if_false]
        · have := hu S.ref (Nat.le_trans hcnt (by omega))
          rw [List.erase_of_not_mem hli] at this
          exact this
      · rw [hs, if_pos rfl] at hcnt
        have hp := hpos hs
        have hd : decr S.ref = S.ref - 1 := by simp only [decr]; rw [if_neg (by omega)]
        by_cases h0 : S.ref - 1 = 0
        · refine ⟨⟨its.set i none, none⟩, ?_, ?_, ?_⟩
          · simp only [World.step, World.destroy, getIt_ok hit, hs, bind, Except.bind, World.getShared, if_true, hd, h0]
          · simp [I.len]
          · intro k
            have J := hu _ hcnt
            have hk := J.rel k
            have hnh : ∀ o ∈ its.set i none, holds o = false := by
              have : (its.set i none).countP holds = 0 := by omega
              intro o ho
              have := List.countP_eq_zero.mp this o ho
              simpa using this
            have hkn : holds (its.set i none)[k]?.join = false := by
              cases hj : (its.set i none)[k]? with
              | none => rfl
              | some o => exact hnh o (List.mem_of_getElem? hj)
            revert hk hkn
            simp only
            generalize (its.set i none)[k]?.join = o
            generalize (s.pos.set i none)[k]?.join = P
            intro hk hkn
            rcases o with _ | jt <;> rcases P with _ | P
            · simp
            · cases P <;> exact hk.elim
            · exact hk.elim
            · cases P with
              | «at» p => obtain ⟨rfl, _⟩ := hk; simp [holds] at hkn
              | ended => simp only [holds] at hkn; rw [hk.2.2] at hkn; simp at hkn
              | null => simp only [RelIt] at hk; simp [hk]
              | master => simp only [RelIt] at hk; rw [hk] at hkn; simp [holds] at hkn
        · refine ⟨⟨its.set i none, some { S with ref := S.ref - 1, clients := S.clients.erase i }⟩, ?_, b, hu _ hcnt⟩
          simp only [World.step, World.destroy, getIt_ok hit, hs, bind, Except.bind, World.getShared, if_true, hd, if_neg h0]
    · simp at h

/-- One operation. -/
theorem Good.step {text : List Nat} {w : World} {s s' : Ideal} {o : Output} {op : Op}
    (hg : Good text w s) (h : s.step text op = some (s', o)) :
    ∃ w', w.step false op = .ok (w', o) ∧ Good text w' s' := by
  obtain ⟨its, sh⟩ := w
  cases sh with
  | some S => obtain ⟨b, I⟩ := hg; exact I.step_eq h
  | none =>
    obtain ⟨hl, hr⟩ := hg
    have hget : ∀ {i : Nat} {P : Pos}, s.pos[i]? = some (some P) →
        P = .null ∧ its[i]? = some (some ⟨false, false, npos, false⟩) ∧ i < its.length := by
      intro i P hP
      rcases hr i with ⟨_, h2⟩ | ⟨h1, h2⟩
      · simp [hP] at h2
      · have h1 := join_some.mp h1
        refine ⟨by simpa [hP] using h2, h1, (List.getElem?_eq_some_iff.mp h1).1⟩
    have hset : ∀ {i : Nat} {o : Option It} {P : Option Pos}, i < its.length →
        ((o = none ∧ P = none) ∨ (o = some ⟨false, false, npos, false⟩ ∧ P = some .null)) →
        Good text ⟨its.set i o, none⟩ { s with pos := s.pos.set i P } := by
      intro i o P hi ho
      refine ⟨by simpa using hl, fun k => ?_⟩
      simp only
      rw [join_set hi, join_set (hl ▸ hi)]
      split
      · exact ho
      · exact hr k
    cases op with
    | default =>
      simp only [Ideal.step, Option.some.injEq, Prod.mk.injEq] at h
      obtain ⟨rfl, rfl⟩ := h
      refine ⟨⟨its ++ [some ⟨false, false, npos, false⟩], none⟩, by rw [World.step]; simp [hl], ?_, ?_⟩
      · simpa using hl
      · intro k
        simp only
        rw [join_append, join_append, ← hl]
        split
        · simp
        · exact hr k
    | copy i =>
      simp only [Ideal.step] at h
      split at h
      · next hp => exact absurd (hget hp).1 (by simp)
      · next P hne hp =>
        simp only [Option.some.injEq, Prod.mk.injEq] at h
        obtain ⟨rfl, rfl⟩ := h
        obtain ⟨rfl, hit, _⟩ := hget hp
        refine ⟨⟨its ++ [some ⟨false, false, npos, false⟩], none⟩, ?_, ?_, ?_⟩
        · simp only [World.step, World.copy, getIt_ok hit, bind, Except.bind, Bool.false_eq_true, if_false]
          simp [hl]
        · simpa using hl
        · intro k
          simp only
          rw [join_append, join_append, ← hl]
          split
          · simp
          · exact hr k
      · simp at h
    | assign i j =>
      simp only [Ideal.step] at h
      split at h
      · simp at h
      · simp at h
      · next P Q hPn hQn hP hQ =>
        simp only [Option.some.injEq, Prod.mk.injEq] at h
        obtain ⟨rfl, rfl⟩ := h
        obtain ⟨rfl, hit, hi⟩ := hget hP
        obtain ⟨rfl, hjt, hj⟩ := hget hQ
        by_cases hij : i = j
        · subst hij
          refine ⟨⟨its, none⟩, ?_, ?_⟩
          · simp only [World.step, World.assign, if_true, getIt_ok hit, bind, Except.bind]
          · have := hset hi (Or.inr ⟨rfl, rfl⟩)
            have he : its.set i (some ⟨false, false, npos, false⟩) = its := by
              apply List.ext_getElem?
              intro k
              rw [List.getElem?_set]
              split
              · next e => subst e; rw [hit]
              · rfl
            rw [he] at this
            exact this
        · refine ⟨⟨its.set i (some ⟨false, false, npos, false⟩), none⟩, ?_, hset hi (Or.inr ⟨rfl, rfl⟩)⟩
          simp only [World.step, World.assign, if_neg hij, getIt_ok hit, getIt_ok hjt, bind, Except.bind,
            Bool.false_eq_true, if_false, not_false_eq_true, and_self, if_true]
      · simp at h
    | inc i =>
      simp only [Ideal.step] at h
      split at h
      · next hp => exact absurd (hget hp).1 (by simp)
      · next p hp => exact absurd (hget hp).1 (by simp)
      · simp at h
    | deref i =>
      simp only [Ideal.step] at h
      split at h
      · next hp => exact absurd (hget hp).1 (by simp)
      · next p hp => exact absurd (hget hp).1 (by simp)
      · simp at h
    | eq i j =>
      simp only [Ideal.step] at h
      split at h
      · simp at h
      · simp at h
      · next P Q hPn hQn hP hQ =>
        simp only [Option.some.injEq, Prod.mk.injEq] at h
        obtain ⟨rfl, rfl⟩ := h
        obtain ⟨rfl, hit, hi⟩ := hget hP
        obtain ⟨rfl, hjt, hj⟩ := hget hQ
        refine ⟨⟨its, none⟩, ?_, hl, hr⟩
        simp only [World.step, getIt_ok hit, getIt_ok hjt, bind, Except.bind]
        simp [itEq, Pos.same]
      · simp at h
    | destroy i =>
      simp only [Ideal.step] at h
      split at h
      · next P hP =>
        simp only [Option.some.injEq, Prod.mk.injEq] at h
        obtain ⟨rfl, rfl⟩ := h
        obtain ⟨rfl, hit, hi⟩ := hget hP
        refine ⟨⟨its.set i none, none⟩, ?_, hset hi (Or.inl ⟨rfl, rfl⟩)⟩
        simp only [World.step, World.destroy, getIt_ok hit, bind, Except.bind, Bool.false_eq_true, if_false]
      · simp at h

/-- A sequence of operations. -/
theorem Good.run {text : List Nat} : ∀ {ops : List Op} {w : World} {s s' : Ideal} {os : List Output},
    Good text w s → s.run text ops = some (s', os) →
    ∃ w', w.run false ops = .ok (w', os) ∧ Good text w' s'
  | [], w, s, s', os, hg, h => by
    simp only [Ideal.run, Option.some.injEq, Prod.mk.injEq] at h
    obtain ⟨rfl, rfl⟩ := h
    exact ⟨w, rfl, hg⟩
  | op :: ops, w, s, s', os, hg, h => by
    simp only [Ideal.run] at h
    obtain ⟨⟨s1, o⟩, h1, h⟩ := Option.bind_eq_some_iff.mp h
    obtain ⟨⟨s2, os2⟩, h2, he⟩ := Option.map_eq_some_iff.mp h
    simp only [Prod.mk.injEq] at he
    obtain ⟨rfl, rfl⟩ := he
    obtain ⟨w1, hw1, hg1⟩ := hg.step h1
    obtain ⟨w2, hw2, hg2⟩ := Good.run hg1 h2
    exact ⟨w2, by simp only [World.run, hw1, hw2, bind, Except.bind], hg2⟩

theorem start_good {text : List Nat} {size inc : Nat} {w : World} (ht : text ≠ [])
    (hn : text.length < npos) (hi : 0 < inc) (h : World.start text size inc = .ok w) :
    Good text w Ideal.start := by
  unfold World.start at h
  split at h
  · simp at h
  · next hs =>
    simp only [Except.ok.injEq] at h
    subst h
    have hpos : 0 < text.length := List.length_pos_iff.mpr ht
    refine ⟨0, ?_⟩
    exact {
      len := rfl
      rel := by
        intro i
        cases i with
        | zero => rfl
        | succ i => simp [Ideal.start, RelIt]
      buf := by
        show (text.take size ++ _).take (text.take size).length = (text.drop 0).take (text.take size).length
        rw [List.take_append_of_le_length (Nat.le_refl _)]
        simp [List.take_take]
      le := by simp; omega
      size := by simp
      stream := by
        show text.drop size = text.drop (0 + (text.take size).length)
        rw [List.length_take, Nat.zero_add]
        by_cases h : size ≤ text.length
        · rw [Nat.min_eq_left h]
        · rw [List.drop_eq_nil_of_le (by omega), List.drop_eq_nil_of_le (by omega)]
      full := by
        intro h
        have h : text.drop size ≠ [] := h
        have : size < text.length := by
          rcases Nat.lt_or_ge size text.length with h' | h'
          · exact h'
          · exact absurd (List.drop_eq_nil_of_le h') h
        simp
        omega
      nodup := by simp
      mem := by
        intro c
        cases c with
        | zero => simp [listed]
        | succ c => simp [listed]
      ref := by simp [holds]
      inc := hi
      fresh := by
        intro _
        refine ⟨rfl, by simp; omega, ?_⟩
        intro i p
        cases i with
        | zero => simp [Ideal.start]
        | succ i => simp [Ideal.start]
      bound := hn }

/-- When `memcpy` of overlapping ranges counts, an increment is as without or undefined. -/
theorem reload_strict (its : List (Option It)) (S : Shared) :
    reload true its S = reload false its S ∨ ∃ m, reload true its S = .error (.ub m) := by
  unfold reload
  cases lowest its S with
  | error e => left; rfl
  | ok lo =>
    simp only [bind, Except.bind]
    by_cases h0 : lo = 0
    · left; simp only [if_pos h0]
    · simp only [if_neg h0]
      by_cases h1 : lo > S.buffer.length
      · left; simp only [if_pos h1]
      · simp only [if_neg h1]
        by_cases h2 : S.buffer.length - lo > lo
        · right; rw [if_pos ⟨trivial, h2⟩]; exact ⟨_, rfl⟩
        · left; rw [if_neg (fun h => h2 h.2), if_neg (fun h => h2 h.2)]

theorem step_strict (w : World) (op : Op) :
    w.step true op = w.step false op ∨ ∃ m, w.step true op = .error (.ub m) := by
  cases op with
  | inc i =>
    simp only [World.step, World.inc]
    cases hc : checkMaster w i with
    | error e => left; rfl
    | ok w1 =>
      simp only [bind, Except.bind]
      cases hg : getIt w1.its i with
      | error e => left; rfl
      | ok it =>
        simp only [updateState, bind, Except.bind]
        generalize w1.its.set i (some { it with index := (it.index + 1) % (npos + 1) }) = its
        cases getIt its i with
        | error e => left; rfl
        | ok jt =>
          simp only [World.getShared]
          cases w1.shared with
          | none => left; rfl
          | some S =>
            simp only
            by_cases hi : jt.index ≥ S.len
            · simp only [if_pos hi]
              rcases reload_strict its S with h | ⟨m, h⟩
              · left; rw [h]
              · right; rw [h]; exact ⟨m, rfl⟩
            · left; simp only [if_neg hi]
  | _ => left; rfl

theorem run_strict (ops : List Op) : ∀ w : World,
    w.run true ops = w.run false ops ∨ ∃ m, w.run true ops = .error (.ub m) := by
  induction ops with
  | nil => intro w; left; rfl
  | cons op ops ih =>
    intro w
    simp only [World.run, bind, Except.bind]
    rcases step_strict w op with h | ⟨m, h⟩
    · rw [h]
      cases w.step false op with
      | error e => left; rfl
      | ok r =>
        simp only
        rcases ih r.1 with h | ⟨m, h⟩
        · left; rw [h]
        · right; rw [h]; exact ⟨m, rfl⟩
    · right; rw [h]; exact ⟨m, rfl⟩

/-! ## Reading through -/

/-- The loop that reads a text: `it != end`, `*it`, `++it`, over and over. -/
def readOps (text : List Nat) : List Op :=
  text.flatMap (fun _ => [.eq 1 2, .deref 1, .inc 1]) ++ [.eq 1 2]

/-- What it sees. -/
def readOuts (text : List Nat) : List Output :=
  text.flatMap (fun c => [.bool false, .char c, .nothing]) ++ [.bool true]

theorem reads_from (text : List Nat) : ∀ (t : List Nat) (p : Nat), p ≤ text.length → t = text.drop p →
    ∃ s', Ideal.run text ⟨[some .master, some (if p < text.length then .at p else .ended), some .null], false⟩
      (readOps t) = some (s', readOuts t)
  | [], p, hp, h => by
    have : ¬ p < text.length := by
      intro hlt
      have := congrArg List.length h
      simp at this
      omega
    rw [if_neg this]
    exact ⟨_, rfl⟩
  | c :: t, p, hp, h => by
    have hlt : p < text.length := by
      have := congrArg List.length h
      simp at this
      omega
    have hc : text[p]? = some c := by
      have := congrArg (fun l => l[0]?) h
      simpa using this.symm
    have ht : t = text.drop (p + 1) := by
      have := congrArg List.tail h
      simpa using this
    obtain ⟨s', hs'⟩ := reads_from text t (p + 1) (by omega) ht
    refine ⟨s', ?_⟩
    rw [if_pos hlt]
    have e1 : readOps (c :: t) = .eq 1 2 :: .deref 1 :: .inc 1 :: readOps t := rfl
    have e2 : readOuts (c :: t) = .bool false :: .char c :: .nothing :: readOuts t := rfl
    rw [e1, e2]
    have hn : Pos.next text p = if p + 1 < text.length then .at (p + 1) else .ended := rfl
    rw [← hn] at hs'
    simp [Ideal.run, Ideal.step, hc, Pos.same, hs']

end Lexertl.Stream
