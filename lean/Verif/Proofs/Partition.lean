import Verif.Proofs.Split
import Verif.Proofs.StringToken

/-
Both users of the splitting loop satisfy its laws.
-/
namespace Lexertl
open Lexertl.Spec

/-! ### Sorted-set helpers -/

theorem mem_setInsert (x y : Nat) (s : List Nat) : y ∈ setInsert x s ↔ y = x ∨ y ∈ s := by
  induction s with
  | nil => simp [setInsert]
  | cons a s ih =>
    unfold setInsert
    split
    · simp
    · split
      · subst_vars; simp
      · rw [List.mem_cons, ih, List.mem_cons]; grind

theorem pairwise_setInsert (x : Nat) (s : List Nat) (h : s.Pairwise (· < ·)) :
    (setInsert x s).Pairwise (· < ·) := by
  induction s with
  | nil => simp [setInsert]
  | cons a s ih =>
    rw [List.pairwise_cons] at h
    unfold setInsert
    split
    · rw [List.pairwise_cons, List.pairwise_cons]
      refine ⟨?_, h⟩
      intro b hb
      rcases List.mem_cons.1 hb with rfl | hb
      · assumption
      · have := h.1 b hb; omega
    · split
      · rw [List.pairwise_cons]; exact h
      · rw [List.pairwise_cons]
        refine ⟨?_, ih h.2⟩
        intro b hb
        rw [mem_setInsert] at hb
        rcases hb with rfl | hb
        · omega
        · exact h.1 b hb

theorem mem_foldl_setInsert (y : Nat) (s acc : List Nat) :
    y ∈ s.foldl (fun s x => setInsert x s) acc ↔ y ∈ acc ∨ y ∈ s := by
  induction s generalizing acc with
  | nil => simp
  | cons a s ih => rw [List.foldl_cons, ih, mem_setInsert, List.mem_cons]; grind

theorem setInsert_ne_nil (x : Nat) (s : List Nat) : setInsert x s ≠ [] := by
  cases s with
  | nil => simp [setInsert]
  | cons a s => unfold setInsert; split <;> (try split) <;> simp

/-! ### Charsets -/

namespace Charset

def ok (c : Charset) : Prop := Normal c.token ∧ (c.token = [] → c.indexSet = [])

def dom (c : Charset) (x : Nat) : Bool := decide (Mem x c.token)

/-- The index set as a set. -/
def pay (c : Charset) : Nat → Prop := fun i => i ∈ c.indexSet

theorem token_nil_iff (t : Token) (h : Normal t) : t = [] ↔ ∀ x, ¬ Mem x t := by
  constructor
  · rintro rfl x; exact Token.mem_nil x
  · intro hx
    cases t with
    | nil => rfl
    | cons r t =>
      have h1 := ((Token.normal_cons r t).1 h).1
      exact absurd ((Token.mem_cons r.1 r t).2 (.inl ⟨Nat.le_refl _, h1⟩)) (hx _)

theorem laws : SplitLaws Charset.intersect Charset.isEmpty dom pay
    (fun p q i => p i ∨ q i) ok where
  empty_iff := by
    intro a ha
    have := token_nil_iff a.token ha.1
    unfold isEmpty dom
    simp only [Bool.and_eq_true, List.isEmpty_iff, decide_eq_false_iff_not]
    rw [← this]
    exact ⟨fun h => h.1, fun h => ⟨h, ha.2 h⟩⟩
  isect_ok := by
    intro l r hl hr
    obtain ⟨l', r', o', he, nl, nr, no, hm⟩ :=
      Token.intersect_spec l.token r.token [] hl.1 hr.1 Token.normal_nil
    unfold intersect
    rw [he]
    simp only []
    cases o' with
    | nil =>
      simp only [List.isEmpty_nil, if_true]
      refine ⟨_, _, _, rfl, ⟨nl, ?_⟩, ⟨nr, ?_⟩, ⟨no, fun _ => rfl⟩, ?_, ?_, ?_, ?_, ?_, ?_⟩
      · intro h
        apply hl.2
        rw [token_nil_iff _ hl.1]
        intro x hx
        have := hm x
        simp only at h
        subst h
        have h2 := (token_nil_iff _ nl).1 rfl x
        have h3 := Token.mem_nil x
        grind
      · intro h
        apply hr.2
        rw [token_nil_iff _ hr.1]
        intro x hx
        have := hm x
        simp only at h
        subst h
        have h2 := (token_nil_iff _ nr).1 rfl x
        have h3 := Token.mem_nil x
        grind
      · intro x; have := hm x; simp only [dom]; grind
      · intro x; have := hm x; simp only [dom]; grind
      · intro x; have := hm x; have := Token.mem_nil x; simp only [dom]; grind
      · intro _; rfl
      · intro _; rfl
      · intro h; simp [isEmpty] at h
    | cons p o =>
      simp only [List.isEmpty_cons, Bool.false_eq_true, if_false]
      refine ⟨_, _, _, rfl, ⟨nl, ?_⟩, ⟨nr, ?_⟩, ⟨no, by simp⟩, ?_, ?_, ?_, ?_, ?_, ?_⟩
      · intro h; simp only at h; simp [h]
      · intro h; simp only at h; simp [h]
      · intro x; have := hm x; simp only [dom]; grind
      · intro x; have := hm x; simp only [dom]; grind
      · intro x; have := hm x; have := Token.mem_nil x; simp only [dom]; grind
      · intro h
        cases l' with
        | nil => simp [isEmpty] at h
        | cons => rfl
      · intro h
        cases r' with
        | nil => simp [isEmpty] at h
        | cons => rfl
      · intro _
        funext i
        simp only [pay, eq_iff_iff]
        rw [mem_foldl_setInsert, mem_foldl_setInsert]
        simp

end Charset

/-! ### Equivsets -/

namespace Equivset

theorem mem_setIntersection (xs ys : List Nat) (hx : xs.Pairwise (· < ·)) (hy : ys.Pairwise (· < ·))
    (a : Nat) : a ∈ setIntersection xs ys ↔ a ∈ xs ∧ a ∈ ys := by
  fun_induction setIntersection xs ys with
  | case1 => simp
  | case2 => simp
  | case3 x xs y ys h ih =>
    rw [ih (List.pairwise_cons.1 hx).2 hy]
    have := (List.pairwise_cons.1 hy).1
    constructor
    · rintro ⟨h1, h2⟩; exact ⟨List.mem_cons_of_mem _ h1, h2⟩
    · rintro ⟨h1, h2⟩
      rcases List.mem_cons.1 h1 with rfl | h1
      · rcases List.mem_cons.1 h2 with rfl | h2
        · omega
        · have := this a h2; omega
      · exact ⟨h1, h2⟩
  | case4 x xs y ys h h' ih =>
    rw [ih hx (List.pairwise_cons.1 hy).2]
    have := (List.pairwise_cons.1 hx).1
    constructor
    · rintro ⟨h1, h2⟩; exact ⟨h1, List.mem_cons_of_mem _ h2⟩
    · rintro ⟨h1, h2⟩
      rcases List.mem_cons.1 h2 with rfl | h2
      · rcases List.mem_cons.1 h1 with rfl | h1
        · omega
        · have := this a h1; omega
      · exact ⟨h1, h2⟩
  | case5 x xs y ys h h' ih =>
    have : x = y := by omega
    subst this
    rw [List.mem_cons, ih (List.pairwise_cons.1 hx).2 (List.pairwise_cons.1 hy).2]
    have h1 := (List.pairwise_cons.1 hx).1
    have h2 := (List.pairwise_cons.1 hy).1
    simp only [List.mem_cons]
    grind

theorem setIntersection_sublist (xs ys : List Nat) : (setIntersection xs ys).Sublist xs := by
  fun_induction setIntersection xs ys with
  | case1 => simp
  | case2 => simp
  | case3 x xs y ys h ih => exact ih.cons _
  | case4 x xs y ys h h' ih => exact ih
  | case5 x xs y ys h h' ih => exact ih.cons_cons _

theorem setIntersection_sublist_right (xs ys : List Nat) :
    (setIntersection xs ys).Sublist ys := by
  fun_induction setIntersection xs ys with
  | case1 => simp
  | case2 => simp
  | case3 x xs y ys h ih => exact ih
  | case4 x xs y ys h h' ih => exact ih.cons _
  | case5 x xs y ys h h' ih =>
    have : x = y := by omega
    subst this
    exact ih.cons_cons _

theorem removeIdx_spec (s d : List Nat) (h : s.Sublist d) (hd : d.Pairwise (· < ·)) :
    ∃ e, removeIdx s d = some e ∧ e.Sublist d ∧ ∀ a, a ∈ e ↔ a ∈ d ∧ a ∉ s := by
  fun_induction removeIdx s d with
  | case1 d => exact ⟨d, rfl, List.Sublist.refl _, by simp⟩
  | case2 s ss => cases h
  | case3 ss d ds ih =>
    have hs : ss.Sublist ds := by simpa using h
    rw [List.pairwise_cons] at hd
    obtain ⟨e, h1, h2, h3⟩ := ih hs hd.2
    refine ⟨e, h1, h2.cons _, ?_⟩
    intro a
    rw [h3]
    have := hd.1 a
    have hss := fun ha => this (hs.subset ha)
    simp only [List.mem_cons]
    constructor
    · rintro ⟨h4, h5⟩
      have := this h4
      refine ⟨.inr h4, ?_⟩
      rintro (rfl | h6)
      · omega
      · exact h5 h6
    · rintro ⟨h4 | h4, h5⟩
      · exact absurd (.inl h4) h5
      · exact ⟨h4, fun h6 => h5 (.inr h6)⟩
  | case4 s ss d ds hne ih =>
    have hs : (s :: ss).Sublist ds := by
      cases h with
      | cons _ h => exact h
      | cons_cons _ h => exact absurd rfl hne
    have hd' := List.pairwise_cons.1 hd
    obtain ⟨e, h1, h2, h3⟩ := ih hs hd'.2
    refine ⟨d :: e, by rw [h1]; rfl, h2.cons_cons _, ?_⟩
    intro a
    have hlt := hd'.1 a
    have hsub : a ∈ s :: ss → a ∈ ds := fun h => hs.subset h
    rw [List.mem_cons, h3, List.mem_cons (b := d)]
    constructor
    · rintro (rfl | h4)
      · refine ⟨.inl rfl, fun h5 => ?_⟩
        have := hlt (hsub h5)
        omega
      · exact ⟨.inr h4.1, h4.2⟩
    · rintro ⟨h4 | h4, h5⟩
      · exact .inl h4
      · exact .inr ⟨h4, h5⟩

theorem mem_mergeFollow (l r : List Nat) (a : Nat) : a ∈ mergeFollow l r ↔ a ∈ l ∨ a ∈ r := by
  unfold mergeFollow
  induction r generalizing l with
  | nil => simp
  | cons x r ih =>
    rw [List.foldl_cons, ih]
    split <;> simp <;> grind

theorem mergeFollow_nodup (l r : List Nat) (hl : l.Nodup) : (mergeFollow l r).Nodup := by
  unfold mergeFollow
  induction r generalizing l with
  | nil => simpa
  | cons x r ih =>
    rw [List.foldl_cons]
    apply ih
    split
    · exact hl
    · rw [List.nodup_append]; grind

def ok (e : Equivset) : Prop :=
  e.indexVector.Pairwise (· < ·) ∧ (e.indexVector = [] → e.followpos = [])

def dom (e : Equivset) (x : Nat) : Bool := decide (x ∈ e.indexVector)

/-- Id, greediness and follow positions of a piece. -/
def pay (e : Equivset) : Nat × Greedy × List Nat := (e.id, e.greedy, e.followpos)

def comb (p q : Nat × Greedy × List Nat) : Nat × Greedy × List Nat :=
  (p.1, processGreedy p.2.1 q.2.1, mergeFollow p.2.2 q.2.2)

theorem laws : SplitLaws Equivset.intersect Equivset.isEmpty dom pay comb ok where
  empty_iff := by
    intro a ha
    unfold isEmpty dom
    simp only [Bool.and_eq_true, List.isEmpty_iff, decide_eq_false_iff_not]
    rw [← List.eq_nil_iff_forall_not_mem]
    exact ⟨fun h => h.1, fun h => ⟨h, ha.2 h⟩⟩
  isect_ok := by
    intro l r hl hr
    have hm := mem_setIntersection l.indexVector r.indexVector hl.1 hr.1
    have sl := setIntersection_sublist l.indexVector r.indexVector
    have sr := setIntersection_sublist_right l.indexVector r.indexVector
    unfold intersect
    generalize setIntersection l.indexVector r.indexVector = ov at *
    simp only []
    cases ov with
    | nil =>
      simp only [List.isEmpty_nil, if_true]
      refine ⟨_, _, _, rfl, hl, hr, ⟨List.Pairwise.nil, fun _ => rfl⟩, ?_, ?_, ?_, ?_, ?_, ?_⟩
      · intro x; have := hm x; simp only [dom]; grind
      · intro x; have := hm x; simp only [dom]; grind
      · intro x; have := hm x; simp only [dom]; grind
      · intro _; rfl
      · intro _; rfl
      · intro h; simp [isEmpty] at h
    | cons p o =>
      simp only [List.isEmpty_cons, Bool.false_eq_true, if_false]
      obtain ⟨li, h1, h2, h3⟩ := removeIdx_spec _ _ sl hl.1
      obtain ⟨ri, h4, h5, h6⟩ := removeIdx_spec _ _ sr hr.1
      rw [h1, h4]
      refine ⟨_, _, _, rfl, ⟨hl.1.sublist h2, ?_⟩, ⟨hr.1.sublist h5, ?_⟩,
        ⟨hl.1.sublist sl, by simp⟩, ?_, ?_, ?_, ?_, ?_, ?_⟩
      · intro h; simp only at h; simp [h]
      · intro h; simp only at h; simp [h]
      · intro x; have := hm x; have := h3 x; simp only [dom]; grind
      · intro x; have := hm x; have := h6 x; simp only [dom]; grind
      · intro x; have := hm x; simp only [dom]; grind
      · intro h
        cases li with
        | nil => simp [isEmpty] at h
        | cons => simp [pay]
      · intro h
        cases ri with
        | nil => simp [isEmpty] at h
        | cons => simp [pay]
      · intro _; rfl

end Equivset
end Lexertl
