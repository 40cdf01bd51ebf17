import Verif.Model.StringToken
import Verif.Spec.CharSet

namespace Lexertl
open Spec
namespace Token

theorem mem_nil (c : Nat) : ¬ Mem c [] := by simp [Mem]

theorem mem_cons (c : Nat) (r : Range) (t : Token) :
    Mem c (r :: t) ↔ (r.1 ≤ c ∧ c ≤ r.2) ∨ Mem c t := by simp [Mem]

theorem mem_append (c : Nat) (s t : Token) :
    Mem c (s ++ t) ↔ Mem c s ∨ Mem c t := by
  simp only [Mem, List.mem_append]
  constructor
  · rintro ⟨r, h | h, h'⟩
    · exact .inl ⟨r, h, h'⟩
    · exact .inr ⟨r, h, h'⟩
  · rintro (⟨r, h, h'⟩ | ⟨r, h, h'⟩)
    · exact ⟨r, .inl h, h'⟩
    · exact ⟨r, .inr h, h'⟩

theorem normal_nil : Normal [] := by simp [Normal]

theorem normal_cons (r : Range) (t : Token) :
    Normal (r :: t) ↔ r.1 ≤ r.2 ∧ (∀ x ∈ t, r.2 + 1 < x.1) ∧ Normal t := by
  simp only [Normal, List.mem_cons, List.pairwise_cons, forall_eq_or_imp]
  constructor
  · rintro ⟨⟨a, b⟩, c, d⟩; exact ⟨a, c, b, d⟩
  · rintro ⟨a, c, b, d⟩; exact ⟨⟨a, b⟩, c, d⟩

theorem normal_append (s t : Token) :
    Normal (s ++ t) ↔ Normal s ∧ Normal t ∧ ∀ x ∈ s, ∀ y ∈ t, x.2 + 1 < y.1 := by
  simp only [Normal, List.mem_append, List.pairwise_append]
  constructor
  · rintro ⟨a, b, c, d⟩
    exact ⟨⟨fun r h => a r (.inl h), b⟩, ⟨fun r h => a r (.inr h), c⟩, d⟩
  · rintro ⟨⟨a, b⟩, ⟨c, d⟩, e⟩
    exact ⟨fun r h => h.elim (a r) (c r), b, d, e⟩

/-- Insertion where nothing overlaps or touches. -/
theorem insertGo_free (r : Range) (pre a b : Token)
    (ha : ∀ p ∈ a, p.2 + 1 < r.1) (hb : ∀ q ∈ b, r.2 + 1 < q.1 ∧ q.1 ≤ q.2) (hr : r.1 ≤ r.2) :
    insertGo r pre [] (a ++ b) = (pre ++ a ++ r :: b, (pre ++ a).length) := by
  induction a generalizing pre with
  | nil =>
    cases b with
    | nil => simp [insertGo]
    | cons q b =>
      have := hb q (by simp)
      simp only [List.nil_append, insertGo]
      rw [if_neg (by omega), if_pos (by omega), if_neg (by omega)]
      simp
  | cons p a ih =>
    have := ha p (by simp)
    simp only [List.cons_append, insertGo]
    rw [if_pos (by omega), if_neg (by omega)]
    rw [ih (pre ++ [p]) (fun x hx => ha x (by simp [hx]))]
    simp

theorem insertGo_spec (r : Range) (pre erased rest : Token)
    (hn : Normal (pre ++ rest)) (hr : r.1 ≤ r.2) (hpre : ∀ p ∈ pre, p.2 + 1 < r.1)
    (her : erased = [] ∨ ∀ x ∈ rest, r.1 < x.1) :
    Normal (insertGo r pre erased rest).1 ∧
      ∀ c, Mem c (insertGo r pre erased rest).1 ↔
        Mem c pre ∨ (r.1 ≤ c ∧ c ≤ r.2) ∨ Mem c rest := by
  induction rest generalizing r pre erased with
  | nil =>
    rw [List.append_nil] at hn
    have : (insertGo r pre erased []).1 = pre ++ [r] := by
      unfold insertGo; cases erased <;> rfl
    rw [this]
    constructor
    · rw [normal_append]
      refine ⟨hn, ?_, ?_⟩
      · simp [normal_cons, normal_nil, hr]
      · intro x hx y hy
        simp only [List.mem_singleton] at hy
        subst hy; exact hpre x hx
    · intro c
      simp [mem_append, mem_cons, mem_nil]
  | cons it rest ih =>
    rw [normal_append, normal_cons] at hn
    obtain ⟨hnp, ⟨hit, hitr, hnr⟩, hcross⟩ := hn
    have hpi : ∀ p ∈ pre, p.2 + 1 < it.1 := fun p hp => hcross p hp it (by simp)
    have hN : Normal (pre ++ rest) := by
      rw [normal_append]
      exact ⟨hnp, hnr, fun x hx y hy => hcross x hx y (by simp [hy])⟩
    unfold insertGo
    split
    · rename_i h1
      split
      · rename_i h2
        have := ih (it.1, r.2) pre (erased ++ [it]) hN (by simp; omega) hpi
          (.inr fun x hx => by have := hitr x hx; simp; omega)
        refine ⟨this.1, fun c => ?_⟩
        rw [this.2 c, mem_cons]
        have : ((it.1, r.2).1 ≤ c ∧ c ≤ (it.1, r.2).2) ↔
            (r.1 ≤ c ∧ c ≤ r.2) ∨ (it.1 ≤ c ∧ c ≤ it.2) := by simp; omega
        rw [this]
        simp only [or_assoc]
      · rename_i h2
        cases erased with
        | nil =>
          have := ih r (pre ++ [it]) [] (by
              rw [List.append_assoc]
              simp only [List.singleton_append]
              rw [normal_append, normal_cons]
              exact ⟨hnp, ⟨hit, hitr, hnr⟩, hcross⟩) hr (by
              intro p hp
              rw [List.mem_append, List.mem_singleton] at hp
              rcases hp with hp | rfl
              · exact hpre p hp
              · omega) (.inl rfl)
          refine ⟨this.1, fun c => ?_⟩
          simp only
          rw [this.2 c, mem_cons, mem_append]
          simp only [mem_cons, mem_nil, or_false]
          constructor
          · rintro ((h | h) | h | h) <;> simp [h]
          · rintro (h | h | h | h) <;> simp [h]
        | cons e es =>
          rcases her with h | h
          · cases h
          · have := h it (by simp); omega
    · rename_i h1
      split
      · rename_i h2
        split
        · rename_i h3
          have := ih (r.1, it.2) pre (erased ++ [it]) hN (by simp; omega) hpre
            (.inr fun x hx => by have := hitr x hx; simp; omega)
          refine ⟨this.1, fun c => ?_⟩
          rw [this.2 c, mem_cons]
          have : ((r.1, it.2).1 ≤ c ∧ c ≤ (r.1, it.2).2) ↔
              (r.1 ≤ c ∧ c ≤ r.2) ∨ (it.1 ≤ c ∧ c ≤ it.2) := by simp; omega
          rw [this]
          simp only [or_assoc]
        · rename_i h3
          suffices Normal (pre ++ r :: it :: rest) ∧ ∀ c, Mem c (pre ++ r :: it :: rest) ↔
              Mem c pre ∨ (r.1 ≤ c ∧ c ≤ r.2) ∨ Mem c (it :: rest) by
            cases erased <;> exact this
          constructor
          · rw [normal_append, normal_cons, normal_cons]
            refine ⟨hnp, ⟨hr, ?_, hit, hitr, hnr⟩, ?_⟩
            · intro x hx
              rw [List.mem_cons] at hx
              rcases hx with rfl | hx
              · omega
              · have := hitr x hx; omega
            · intro x hx y hy
              rw [List.mem_cons] at hy
              rcases hy with rfl | hy
              · exact hpre x hx
              · exact hcross x hx y hy
          · intro c; rw [mem_append, mem_cons]
      · rename_i h2
        split
        · rename_i h3
          have := ih (r.1, if r.2 < it.2 then it.2 else r.2) pre (erased ++ [it]) hN
            (by simp only; split <;> omega) hpre
            (.inr fun x hx => by have := hitr x hx; simp; omega)
          refine ⟨this.1, fun c => ?_⟩
          rw [this.2 c, mem_cons]
          have : ((r.1, if r.2 < it.2 then it.2 else r.2).1 ≤ c ∧
              c ≤ (r.1, if r.2 < it.2 then it.2 else r.2).2) ↔
              (r.1 ≤ c ∧ c ≤ r.2) ∨ (it.1 ≤ c ∧ c ≤ it.2) := by
            simp only; split <;> omega
          rw [this]
          simp only [or_assoc]
        · rename_i h3
          split
          · rename_i h4
            have := ih (if r.1 > it.1 then it.1 else r.1, r.2) pre (erased ++ [it]) hN
              (by simp only; split <;> omega)
              (by intro p hp; simp only; split
                  · exact hpi p hp
                  · exact hpre p hp)
              (.inr fun x hx => by have := hitr x hx; simp only; split <;> omega)
            refine ⟨this.1, fun c => ?_⟩
            rw [this.2 c, mem_cons]
            have : ((if r.1 > it.1 then it.1 else r.1, r.2).1 ≤ c ∧
                c ≤ (if r.1 > it.1 then it.1 else r.1, r.2).2) ↔
                (r.1 ≤ c ∧ c ≤ r.2) ∨ (it.1 ≤ c ∧ c ≤ it.2) := by
              simp only; split <;> omega
            rw [this]
            simp only [or_assoc]
          · rename_i h4
            cases erased with
            | nil =>
              simp only
              constructor
              · rw [normal_append, normal_cons]
                exact ⟨hnp, ⟨hit, hitr, hnr⟩, hcross⟩
              · intro c
                rw [mem_append, mem_cons]
                have : (r.1 ≤ c ∧ c ≤ r.2) → (it.1 ≤ c ∧ c ≤ it.2) := by omega
                constructor
                · rintro (h | h)
                  · exact .inl h
                  · exact .inr (.inr h)
                · rintro (h | h | h)
                  · exact .inl h
                  · exact .inr (.inl (this h))
                  · exact .inr h
            | cons e es =>
              rcases her with h | h
              · cases h
              · have := h it (by simp); omega

theorem insert_normal (t : Token) (r : Range) (ht : Normal t) (hr : r.1 ≤ r.2) :
    Normal (insert t r) :=
  (insertGo_spec r [] [] t (by simpa) hr (by simp) (.inl rfl)).1

theorem mem_insert (t : Token) (r : Range) (ht : Normal t) (hr : r.1 ≤ r.2) (c : Nat) :
    Mem c (insert t r) ↔ Mem c t ∨ (r.1 ≤ c ∧ c ≤ r.2) := by
  have := (insertGo_spec r [] [] t (by simpa) hr (by simp) (.inl rfl)).2 c
  rw [insert, insertIter, this]
  simp only [mem_nil, false_or]
  exact or_comm

theorem insertToken_spec (t s : Token) (ht : Normal t) (hs : ∀ r ∈ s, r.1 ≤ r.2) :
    Normal (insertToken t s) ∧ ∀ c, Mem c (insertToken t s) ↔ Mem c t ∨ Mem c s := by
  induction s generalizing t with
  | nil => simp [insertToken, ht, mem_nil]
  | cons r s ih =>
    have hr := hs r (by simp)
    have := ih (insert t r) (insert_normal t r ht hr) (fun x hx => hs x (by simp [hx]))
    refine ⟨this.1, fun c => ?_⟩
    have h2 := this.2 c
    simp only [insertToken, List.foldl_cons] at h2 ⊢
    rw [h2, mem_insert t r ht hr, mem_cons, or_assoc]

theorem negateGo_spec (max next : Nat) (temp rest : Token)
    (hr : Normal rest) (hw : Within max rest) (ht : Normal temp) (hnext : next ≤ max)
    (htn : ∀ c, Mem c temp → c < next) (hge : ∀ x ∈ rest, next ≤ x.1) :
    Normal (negateGo max next temp rest) ∧
      ∀ c, Mem c (negateGo max next temp rest) ↔
        Mem c temp ∨ (next ≤ c ∧ c ≤ max ∧ ¬ Mem c rest) := by
  induction rest generalizing next temp with
  | nil =>
    simp only [negateGo]
    refine ⟨insert_normal _ _ ht hnext, fun c => ?_⟩
    rw [mem_insert _ _ ht hnext]
    simp [mem_nil]
  | cons it rest ih =>
    rw [normal_cons] at hr
    obtain ⟨hit, hitr, hnr⟩ := hr
    have hitm : it.2 ≤ max := hw it (by simp)
    have hwr : Within max rest := fun x hx => hw x (by simp [hx])
    have hni := hge it (by simp)
    have hlow : ∀ c, Mem c rest → it.2 + 1 < c := by
      rintro c ⟨r, hr, h1, h2⟩; have := hitr r hr; omega
    have hT : Normal (if next < it.1 then insert temp (next, it.1 - 1) else temp) ∧
        ∀ c, Mem c (if next < it.1 then insert temp (next, it.1 - 1) else temp) ↔
          Mem c temp ∨ (next ≤ c ∧ c < it.1) := by
      split
      · rename_i h
        refine ⟨insert_normal _ _ ht (by simp; omega), fun c => ?_⟩
        rw [mem_insert _ _ ht (by simp; omega)]
        simp only
        constructor
        · rintro (h | h)
          · exact .inl h
          · right; omega
        · rintro (h | h)
          · exact .inl h
          · right; omega
      · refine ⟨ht, fun c => ⟨.inl, ?_⟩⟩
        rintro (h | h)
        · exact h
        · omega
    simp only [negateGo]
    split
    · rename_i h
      have := ih (it.2 + 1) _ hnr hwr hT.1 (by omega) (by
          intro c hc
          rcases (hT.2 c).1 hc with h | h
          · have := htn c h; omega
          · omega) (fun x hx => by have := hitr x hx; omega)
      refine ⟨this.1, fun c => ?_⟩
      rw [this.2 c, hT.2 c, mem_cons]
      constructor
      · rintro ((h | h) | ⟨h1, h2, h3⟩)
        · exact .inl h
        · refine .inr ⟨by omega, by omega, ?_⟩
          rintro (h' | h')
          · omega
          · have := hlow c h'; omega
        · refine .inr ⟨by omega, h2, ?_⟩
          rintro (h' | h')
          · omega
          · exact h3 h'
      · rintro (h | ⟨h1, h2, h3⟩)
        · exact .inl (.inl h)
        · by_cases h4 : c < it.1
          · exact .inl (.inr ⟨h1, h4⟩)
          · refine .inr ⟨?_, h2, fun h => h3 (.inr h)⟩
            have : ¬ (it.1 ≤ c ∧ c ≤ it.2) := fun h => h3 (.inl h)
            omega
    · rename_i h
      refine ⟨hT.1, fun c => ?_⟩
      rw [hT.2 c, mem_cons]
      constructor
      · rintro (h | h)
        · exact .inl h
        · refine .inr ⟨by omega, by omega, ?_⟩
          rintro (h' | h')
          · omega
          · have := hlow c h'; omega
      · rintro (h | ⟨h1, h2, h3⟩)
        · exact .inl h
        · right
          have : ¬ (it.1 ≤ c ∧ c ≤ it.2) := fun h => h3 (.inl h)
          omega

theorem negate_spec (max : Nat) (t : Token) (ht : Normal t) (hw : Within max t) :
    Normal (negate max t) ∧ ∀ c, Mem c (negate max t) ↔ c ≤ max ∧ ¬ Mem c t := by
  have := negateGo_spec max 0 [] t ht hw normal_nil (by omega) (by simp [mem_nil]) (by simp)
  refine ⟨this.1, fun c => ?_⟩
  rw [negate, this.2 c]
  simp [mem_nil]

theorem within_iff (max : Nat) (t : Token) (ht : ∀ r ∈ t, r.1 ≤ r.2) :
    Within max t ↔ ∀ c, Mem c t → c ≤ max := by
  constructor
  · rintro h c ⟨r, hr, h1, h2⟩; have := h r hr; omega
  · intro h r hr; exact h r.2 ⟨r, hr, ht r hr, Nat.le_refl _⟩

/-- Canonicity: normal tokens with the same characters are equal. -/
theorem normal_ext (s t : Token) (hs : Normal s) (ht : Normal t)
    (h : ∀ c, Mem c s ↔ Mem c t) : s = t := by
  induction s generalizing t with
  | nil =>
    cases t with
    | nil => rfl
    | cons r t =>
      rw [normal_cons] at ht
      exact absurd ((h r.1).2 ((mem_cons _ _ _).2 (.inl ⟨Nat.le_refl _, ht.1⟩))) (mem_nil _)
  | cons r s ih =>
    cases t with
    | nil =>
      rw [normal_cons] at hs
      exact absurd ((h r.1).1 ((mem_cons _ _ _).2 (.inl ⟨Nat.le_refl _, hs.1⟩))) (mem_nil _)
    | cons q t =>
      rw [normal_cons] at hs ht
      obtain ⟨hr, hrs, hs⟩ := hs
      obtain ⟨hq, hqt, ht⟩ := ht
      have ls : ∀ c, Mem c s → r.2 + 1 < c := by
        rintro c ⟨x, hx, h1, h2⟩; have := hrs x hx; omega
      have lt : ∀ c, Mem c t → q.2 + 1 < c := by
        rintro c ⟨x, hx, h1, h2⟩; have := hqt x hx; omega
      have H : ∀ c, ((r.1 ≤ c ∧ c ≤ r.2) ∨ Mem c s) ↔ ((q.1 ≤ c ∧ c ≤ q.2) ∨ Mem c t) := by
        intro c; have := h c; rwa [mem_cons, mem_cons] at this
      have e1 : r.1 = q.1 := by
        have a := (H r.1).1 (.inl ⟨Nat.le_refl _, hr⟩)
        have b := (H q.1).2 (.inl ⟨Nat.le_refl _, hq⟩)
        have a' : q.1 ≤ r.1 := by
          rcases a with a | a
          · exact a.1
          · have := lt _ a; omega
        have b' : r.1 ≤ q.1 := by
          rcases b with b | b
          · exact b.1
          · have := ls _ b; omega
        omega
      have e2 : r.2 = q.2 := by
        rcases Nat.lt_trichotomy r.2 q.2 with hlt | heq | hgt
        · exfalso
          rcases (H (r.2 + 1)).2 (.inl (by omega)) with a | a
          · omega
          · have := ls _ a; omega
        · exact heq
        · exfalso
          rcases (H (q.2 + 1)).1 (.inl (by omega)) with a | a
          · omega
          · have := lt _ a; omega
      have e : r = q := Prod.ext e1 e2
      subst e
      congr 1
      refine ih t hs ht fun c => ⟨fun hc => ?_, fun hc => ?_⟩
      · have := ls c hc
        rcases (H c).1 (.inr hc) with a | a
        · omega
        · exact a
      · have := lt c hc
        rcases (H c).2 (.inr hc) with a | a
        · omega
        · exact a

/-- What `adjust` does to a normal token. -/
theorem adjust_spec (range : Range) (pre : Token) (cur : Range) (post : Token)
    (hn : Normal (pre ++ cur :: post)) (h1 : cur.1 ≤ range.1) (h2 : range.2 ≤ cur.2)
    (h3 : range.1 ≤ range.2) :
    let res := adjust range pre cur post
    Normal (res.1 ++ res.2) ∧
    (∀ c, Mem c (res.1 ++ res.2) ↔
      Mem c (pre ++ cur :: post) ∧ ¬ (range.1 ≤ c ∧ c ≤ range.2)) ∧
    weight res.2 < weight (cur :: post) ∧
    (∀ c, Mem c res.1 → Mem c pre ∨ (c < range.1 ∧ cur.1 ≤ c)) ∧
    (∀ c, Mem c res.2 → Mem c (cur :: post)) := by
  have hn' := hn
  rw [normal_append, normal_cons] at hn
  obtain ⟨hnp, ⟨hc, hcp, hnpost⟩, hcross⟩ := hn
  have hpc : ∀ p ∈ pre, p.2 + 1 < cur.1 := fun p hp => hcross p hp cur (by simp)
  have hpm : ∀ c, Mem c pre → c + 1 < cur.1 := by
    rintro c ⟨x, hx, _, _⟩; have := hpc x hx; omega
  have hqm : ∀ c, Mem c post → cur.2 + 1 < c := by
    rintro c ⟨x, hx, _, _⟩; have := hcp x hx; omega
  intro res
  simp only [res]
  unfold adjust
  split
  · rename_i g1
    split
    · rename_i g2
      have key : insertIter (pre ++ (cur.1, range.1 - 1) :: post) (range.2 + 1, cur.2) =
          (pre ++ (cur.1, range.1 - 1) :: (range.2 + 1, cur.2) :: post, pre.length + 1) := by
        have := insertGo_free (range.2 + 1, cur.2) [] (pre ++ [(cur.1, range.1 - 1)]) post
          (by
            intro p hp
            rw [List.mem_append, List.mem_singleton] at hp
            rcases hp with hp | rfl
            · have := hpc p hp; simp only; omega
            · simp only; omega)
          (fun q hq => ⟨hcp q hq, hnpost.1 q hq⟩) (by simp only; omega)
        simpa [insertIter] using this
      rw [key]
      have t1 : (pre ++ (cur.1, range.1 - 1) :: (range.2 + 1, cur.2) :: post).take
          (pre.length + 1) = pre ++ [(cur.1, range.1 - 1)] := by
        simp [List.take_append, List.take_of_length_le]
      have t2 : (pre ++ (cur.1, range.1 - 1) :: (range.2 + 1, cur.2) :: post).drop
          (pre.length + 1) = (range.2 + 1, cur.2) :: post := by
        simp [List.drop_append, List.drop_of_length_le]
      simp only [t1, t2]
      refine ⟨?_, ?_, ?_, ?_, ?_⟩
      · rw [List.append_assoc, List.singleton_append, normal_append, normal_cons, normal_cons]
        refine ⟨hnp, ⟨by simp only; omega, ?_, by simp only; omega, hcp, hnpost⟩, ?_⟩
        · intro x hx
          rw [List.mem_cons] at hx
          rcases hx with rfl | hx
          · simp only; omega
          · have := hcp x hx; simp only; omega
        · intro x hx y hy
          have := hpc x hx
          simp only [List.mem_cons] at hy
          rcases hy with rfl | rfl | hy
          · simp only; omega
          · simp only; omega
          · have := hcp y hy; omega
      · intro c
        rw [List.append_assoc, List.singleton_append, mem_append, mem_cons, mem_cons, mem_append,
          mem_cons]
        have := hpm c; have := hqm c
        simp only
        constructor
        · rintro (h | h | h | h)
          · have := hpm c h; exact ⟨.inl h, by omega⟩
          · exact ⟨.inr (.inl (by omega)), by omega⟩
          · exact ⟨.inr (.inl (by omega)), by omega⟩
          · have := hqm c h; exact ⟨.inr (.inr h), by omega⟩
        · rintro ⟨h | h | h, h'⟩
          · exact .inl h
          · by_cases c < range.1
            · exact .inr (.inl (by omega))
            · exact .inr (.inr (.inl (by omega)))
          · exact .inr (.inr (.inr h))
      · simp only [weight, List.map_cons, List.sum_cons, List.length_cons]; omega
      · intro c hc
        rw [mem_append, mem_cons] at hc
        rcases hc with h | h | h
        · exact .inl h
        · simp only at h; exact .inr (by omega)
        · exact absurd h (mem_nil c)
      · intro c hc
        rw [mem_cons] at hc ⊢
        rcases hc with h | h
        · simp only at h; exact .inl (by omega)
        · exact .inr h
    · rename_i g2
      refine ⟨?_, ?_, ?_, ?_, ?_⟩
      · rw [normal_append, normal_cons]
        refine ⟨hnp, ⟨by simp only; omega, ?_, hnpost⟩, ?_⟩
        · intro x hx; have := hcp x hx; simp only; omega
        · intro x hx y hy
          rw [List.mem_cons] at hy
          have := hpc x hx
          rcases hy with rfl | hy
          · simp only; omega
          · have := hcp y hy; omega
      · intro c
        simp only [mem_append, mem_cons]
        constructor
        · rintro (h | h | h)
          · have := hpm c h; exact ⟨.inl h, by omega⟩
          · exact ⟨.inr (.inl (by omega)), by omega⟩
          · have := hqm c h; exact ⟨.inr (.inr h), by omega⟩
        · rintro ⟨h | h | h, h'⟩
          · exact .inl h
          · exact .inr (.inl (by omega))
          · exact .inr (.inr h)
      · simp only [weight, List.map_cons, List.sum_cons, List.length_cons]; omega
      · intro c hc; exact .inl hc
      · intro c hc
        rw [mem_cons] at hc ⊢
        rcases hc with h | h
        · simp only at h; exact .inl (by omega)
        · exact .inr h
  · rename_i g1
    split
    · rename_i g2
      refine ⟨?_, ?_, ?_, ?_, ?_⟩
      · rw [normal_append, normal_cons]
        refine ⟨hnp, ⟨by simp only; omega, hcp, hnpost⟩, ?_⟩
        · intro x hx y hy
          rw [List.mem_cons] at hy
          have := hpc x hx
          rcases hy with rfl | hy
          · simp only; omega
          · have := hcp y hy; omega
      · intro c
        simp only [mem_append, mem_cons]
        constructor
        · rintro (h | h | h)
          · have := hpm c h; exact ⟨.inl h, by omega⟩
          · exact ⟨.inr (.inl (by omega)), by omega⟩
          · have := hqm c h; exact ⟨.inr (.inr h), by omega⟩
        · rintro ⟨h | h | h, h'⟩
          · exact .inl h
          · exact .inr (.inl (by omega))
          · exact .inr (.inr h)
      · simp only [weight, List.map_cons, List.sum_cons, List.length_cons]; omega
      · intro c hc; exact .inl hc
      · intro c hc
        rw [mem_cons] at hc ⊢
        rcases hc with h | h
        · simp only at h; exact .inl (by omega)
        · exact .inr h
    · rename_i g2
      refine ⟨?_, ?_, ?_, ?_, ?_⟩
      · rw [normal_append]
        refine ⟨hnp, hnpost, ?_⟩
        · intro x hx y hy; exact hcross x hx y (by simp [hy])
      · intro c
        simp only [mem_append, mem_cons]
        constructor
        · rintro (h | h)
          · have := hpm c h; exact ⟨.inl h, by omega⟩
          · have := hqm c h; exact ⟨.inr (.inr h), by omega⟩
        · rintro ⟨h | h | h, h'⟩
          · exact .inl h
          · omega
          · exact .inr h
      · simp only [weight, List.map_cons, List.sum_cons, List.length_cons]; omega
      · intro c hc; exact .inl hc
      · intro c hc; exact (mem_cons _ _ _).2 (.inr hc)

/-- The characters in `pre` lie before everything in `rest`. -/
theorem normal_append_lt {pre rest : Token} (h : Normal (pre ++ rest)) {c d : Nat}
    (hc : Mem c pre) (hd : Mem d rest) : c + 1 < d := by
  rw [normal_append] at h
  obtain ⟨x, hx, _, _⟩ := hc
  obtain ⟨y, hy, _, _⟩ := hd
  have := h.2.2 x hx y hy
  omega

theorem intersectGo_spec (fuel : Nat) (lpre lrest rpre rrest ov : Token)
    (hl : Normal (lpre ++ lrest)) (hr : Normal (rpre ++ rrest)) (ho : Normal ov)
    (hlp : ∀ c, Mem c lpre → ¬ Mem c (rpre ++ rrest))
    (hrp : ∀ c, Mem c rpre → ¬ Mem c (lpre ++ lrest))
    (hf : weight lrest + weight rrest < fuel) :
    ∃ l' r' o', intersectGo fuel lpre lrest rpre rrest ov = some (l', r', o') ∧
      Normal l' ∧ Normal r' ∧ Normal o' ∧
      ∀ c, (Mem c l' ↔ Mem c (lpre ++ lrest) ∧ ¬ Mem c (rpre ++ rrest)) ∧
        (Mem c r' ↔ Mem c (rpre ++ rrest) ∧ ¬ Mem c (lpre ++ lrest)) ∧
        (Mem c o' ↔ Mem c ov ∨ (Mem c (lpre ++ lrest) ∧ Mem c (rpre ++ rrest))) := by
  induction fuel generalizing lpre lrest rpre rrest ov with
  | zero => omega
  | succ fuel ih =>
    cases lrest with
    | nil =>
      refine ⟨lpre, rpre ++ rrest, ov, by simp [intersectGo], by simpa using hl, hr, ho, fun c => ?_⟩
      have h1 := hlp c
      simp only [List.append_nil]
      refine ⟨?_, ?_, ?_⟩
      · exact ⟨fun h => ⟨h, h1 h⟩, fun h => h.1⟩
      · exact ⟨fun h => ⟨h, fun h' => h1 h' h⟩, fun h => h.1⟩
      · refine ⟨.inl, ?_⟩
        rintro (h | ⟨h, h'⟩)
        · exact h
        · exact absurd h' (h1 h)
    | cons l ls =>
      cases rrest with
      | nil =>
        refine ⟨lpre ++ l :: ls, rpre, ov, by simp [intersectGo], hl, by simpa using hr, ho,
          fun c => ?_⟩
        have h1 := hrp c
        simp only [List.append_nil]
        refine ⟨?_, ?_, ?_⟩
        · exact ⟨fun h => ⟨h, fun h' => h1 h' h⟩, fun h => h.1⟩
        · exact ⟨fun h => ⟨h, h1 h⟩, fun h => h.1⟩
        · refine ⟨.inl, ?_⟩
          rintro (h | ⟨h, h'⟩)
          · exact h
          · exact absurd h (h1 h')
      | cons r rs =>
        have hll : l.1 ≤ l.2 := hl.1 l (by simp)
        have hrr : r.1 ≤ r.2 := hr.1 r (by simp)
        have hlt : ∀ c, Mem c ls → l.2 + 1 < c := by
          rw [normal_append, normal_cons] at hl
          rintro c ⟨x, hx, _, _⟩; have := hl.2.1.2.1 x hx; omega
        have hrt : ∀ c, Mem c rs → r.2 + 1 < c := by
          rw [normal_append, normal_cons] at hr
          rintro c ⟨x, hx, _, _⟩; have := hr.2.1.2.1 x hx; omega
        simp only [intersectGo]
        split
        · rename_i g
          have e : lpre ++ [l] ++ ls = lpre ++ l :: ls := by simp
          have := ih (lpre ++ [l]) ls rpre (r :: rs) ov (by rwa [e]) hr ho
            (by
              intro c hc
              rw [mem_append, mem_cons] at hc
              rcases hc with hc | hc | hc
              · exact hlp c hc
              · intro h
                rw [mem_append, mem_cons] at h
                rcases h with h | h | h
                · exact hrp c h (by rw [mem_append, mem_cons]; exact .inr (.inl hc))
                · omega
                · have := hrt c h; omega
              · exact absurd hc (mem_nil c))
            (by rwa [e])
            (by simp only [weight, List.map_cons, List.sum_cons, List.length_cons] at hf ⊢; omega)
          rwa [e] at this
        · rename_i g
          split
          · rename_i g2
            have e : rpre ++ [r] ++ rs = rpre ++ r :: rs := by simp
            have := ih lpre (l :: ls) (rpre ++ [r]) rs ov hl (by rwa [e]) ho (by rwa [e])
              (by
                intro c hc
                rw [mem_append, mem_cons] at hc
                rcases hc with hc | hc | hc
                · exact hrp c hc
                · intro h
                  rw [mem_append, mem_cons] at h
                  rcases h with h | h | h
                  · exact hlp c h (by rw [mem_append, mem_cons]; exact .inr (.inl hc))
                  · omega
                  · have := hlt c h; omega
                · exact absurd hc (mem_nil c))
              (by simp only [weight, List.map_cons, List.sum_cons, List.length_cons] at hf ⊢; omega)
            rwa [e] at this
          · rename_i g2
            have c1 : (common l r).1 = max r.1 l.1 := by
              unfold common; simp only; split <;> omega
            have c2 : (common l r).2 = min r.2 l.2 := by
              unfold common; simp only; split <;> omega
            have hcm : (common l r).1 ≤ (common l r).2 := by omega
            have A := adjust_spec (common l r) lpre l ls hl (by omega) (by omega) hcm
            have B := adjust_spec (common l r) rpre r rs hr (by omega) (by omega) hcm
            simp only at A B
            have hlpm : ∀ c, Mem c lpre → c + 1 < l.1 := by
              intro c hc
              exact normal_append_lt hl hc ((mem_cons _ _ _).2 (.inl ⟨Nat.le_refl _, hll⟩))
            have hrpm : ∀ c, Mem c rpre → c + 1 < r.1 := by
              intro c hc
              exact normal_append_lt hr hc ((mem_cons _ _ _).2 (.inl ⟨Nat.le_refl _, hrr⟩))
            have := ih _ _ _ _ (insert ov (common l r)) A.1 B.1 (insert_normal _ _ ho hcm)
              (by
                intro c hc h
                rw [B.2.1] at h
                have hcL : Mem c (lpre ++ l :: ls) :=
                  ((A.2.1 c).1 ((mem_append _ _ _).2 (.inl hc))).1
                rcases A.2.2.2.1 c hc with hc' | hc'
                · exact hlp c hc' h.1
                · rw [mem_append, mem_cons] at h
                  rcases h.1 with h' | h' | h'
                  · exact hrp c h' hcL
                  · omega
                  · have := hrt c h'; omega)
              (by
                intro c hc h
                rw [A.2.1] at h
                have hcR : Mem c (rpre ++ r :: rs) :=
                  ((B.2.1 c).1 ((mem_append _ _ _).2 (.inl hc))).1
                rcases B.2.2.2.1 c hc with hc' | hc'
                · exact hrp c hc' h.1
                · rw [mem_append, mem_cons] at h
                  rcases h.1 with h' | h' | h'
                  · exact hlp c h' hcR
                  · omega
                  · have := hlt c h'; omega)
              (by have := A.2.2.1; have := B.2.2.1; omega)
            obtain ⟨l', r', o', e, n1, n2, n3, hm⟩ := this
            refine ⟨l', r', o', e, n1, n2, n3, fun c => ?_⟩
            obtain ⟨m1, m2, m3⟩ := hm c
            have a := A.2.1 c
            have b := B.2.1 c
            have inl : ((common l r).1 ≤ c ∧ c ≤ (common l r).2) →
                Mem c (lpre ++ l :: ls) ∧ Mem c (rpre ++ r :: rs) := by
              intro h
              constructor
              · rw [mem_append, mem_cons]; exact .inr (.inl (by omega))
              · rw [mem_append, mem_cons]; exact .inr (.inl (by omega))
            rw [m1, m2, m3, mem_insert _ _ ho hcm, a, b]
            refine ⟨?_, ?_, ?_⟩
            · constructor
              · rintro ⟨⟨h1, h2⟩, h3⟩; exact ⟨h1, fun h => h3 ⟨h, h2⟩⟩
              · rintro ⟨h1, h2⟩; exact ⟨⟨h1, fun h => h2 (inl h).2⟩, fun h => h2 h.1⟩
            · constructor
              · rintro ⟨⟨h1, h2⟩, h3⟩; exact ⟨h1, fun h => h3 ⟨h, h2⟩⟩
              · rintro ⟨h1, h2⟩; exact ⟨⟨h1, fun h => h2 (inl h).1⟩, fun h => h2 h.1⟩
            · constructor
              · rintro ((h | h) | h)
                · exact .inl h
                · exact .inr (inl h)
                · exact .inr ⟨h.1.1, h.2.1⟩
              · rintro (h | h)
                · exact .inl (.inl h)
                · by_cases hh : (common l r).1 ≤ c ∧ c ≤ (common l r).2
                  · exact .inl (.inr hh)
                  · exact .inr ⟨⟨h.1, hh⟩, h.2, hh⟩

theorem intersect_spec (l r ov : Token) (hl : Normal l) (hr : Normal r) (ho : Normal ov) :
    ∃ l' r' o', intersect l r ov = some (l', r', o') ∧
      Normal l' ∧ Normal r' ∧ Normal o' ∧
      ∀ c, (Mem c l' ↔ Mem c l ∧ ¬ Mem c r) ∧ (Mem c r' ↔ Mem c r ∧ ¬ Mem c l) ∧
        (Mem c o' ↔ Mem c ov ∨ (Mem c l ∧ Mem c r)) := by
  have := intersectGo_spec (weight l + weight r + 1) [] l [] r ov hl hr ho
    (fun c h => absurd h (mem_nil c)) (fun c h => absurd h (mem_nil c)) (by omega)
  simpa [intersect] using this

theorem removeGo_spec (fuel : Nat) (lpre lrest rrest : Token)
    (hl : Normal (lpre ++ lrest)) (hr : Normal rrest)
    (hlp : ∀ c, Mem c lpre → ¬ Mem c rrest)
    (hf : weight lrest + weight rrest < fuel) :
    ∃ l', removeGo fuel lpre lrest rrest = some l' ∧ Normal l' ∧
      ∀ c, Mem c l' ↔ Mem c (lpre ++ lrest) ∧ ¬ Mem c rrest := by
  induction fuel generalizing lpre lrest rrest with
  | zero => omega
  | succ fuel ih =>
    cases lrest with
    | nil =>
      refine ⟨lpre, by simp [removeGo], by simpa using hl, fun c => ?_⟩
      rw [List.append_nil]
      exact ⟨fun h => ⟨h, hlp c h⟩, fun h => h.1⟩
    | cons l ls =>
      cases rrest with
      | nil =>
        exact ⟨lpre ++ l :: ls, by simp [removeGo], hl, fun c => ⟨fun h => ⟨h, mem_nil c⟩, fun h => h.1⟩⟩
      | cons r rs =>
        have hll : l.1 ≤ l.2 := hl.1 l (by simp)
        have hr' := hr
        rw [normal_cons] at hr
        obtain ⟨hrr, hrx, hrs⟩ := hr
        have hlt : ∀ c, Mem c ls → l.2 + 1 < c := by
          rw [normal_append, normal_cons] at hl
          rintro c ⟨x, hx, _, _⟩; have := hl.2.1.2.1 x hx; omega
        have hrt : ∀ c, Mem c rs → r.2 + 1 < c := by
          rintro c ⟨x, hx, _, _⟩; have := hrx x hx; omega
        simp only [removeGo]
        split
        · rename_i g
          have e : lpre ++ [l] ++ ls = lpre ++ l :: ls := by simp
          have := ih (lpre ++ [l]) ls (r :: rs) (by rwa [e]) hr'
            (by
              intro c hc
              rw [mem_append, mem_cons] at hc
              rcases hc with hc | hc | hc
              · exact hlp c hc
              · intro h
                rw [mem_cons] at h
                rcases h with h | h
                · omega
                · have := hrt c h; omega
              · exact absurd hc (mem_nil c))
            (by simp only [weight, List.map_cons, List.sum_cons, List.length_cons] at hf ⊢; omega)
          rwa [e] at this
        · rename_i g
          split
          · rename_i g2
            have hlpm : ∀ c, Mem c lpre → c + 1 < l.1 := by
              intro c hc
              exact normal_append_lt hl hc ((mem_cons _ _ _).2 (.inl ⟨Nat.le_refl _, hll⟩))
            obtain ⟨l', e, n, hm⟩ := ih lpre (l :: ls) rs hl hrs
              (fun c hc h => hlp c hc ((mem_cons _ _ _).2 (.inr h)))
              (by simp only [weight, List.map_cons, List.sum_cons, List.length_cons] at hf ⊢; omega)
            refine ⟨l', e, n, fun c => ?_⟩
            rw [hm c, mem_cons]
            refine ⟨fun h => ⟨h.1, ?_⟩, fun h => ⟨h.1, fun h' => h.2 (.inr h')⟩⟩
            rintro (h' | h')
            · have h1 := h.1
              rw [mem_append, mem_cons] at h1
              rcases h1 with h1 | h1 | h1
              · exact hlp c h1 ((mem_cons _ _ _).2 (.inl h'))
              · omega
              · have := hlt c h1; omega
            · exact h.2 h'
          · rename_i g2
            have c1 : (common l r).1 = max r.1 l.1 := by
              unfold common; simp only; split <;> omega
            have c2 : (common l r).2 = min r.2 l.2 := by
              unfold common; simp only; split <;> omega
            have hcm : (common l r).1 ≤ (common l r).2 := by omega
            have A := adjust_spec (common l r) lpre l ls hl (by omega) (by omega) hcm
            simp only at A
            obtain ⟨l', e, n, hm⟩ := ih _ _ (r :: rs) A.1 hr'
              (by
                intro c hc h
                rcases A.2.2.2.1 c hc with hc' | hc'
                · exact hlp c hc' h
                · rw [mem_cons] at h
                  rcases h with h' | h'
                  · omega
                  · have := hrt c h'; omega)
              (by have := A.2.2.1; omega)
            refine ⟨l', e, n, fun c => ?_⟩
            rw [hm c, A.2.1 c]
            refine ⟨fun h => ⟨h.1.1, h.2⟩, fun h => ⟨⟨h.1, fun h' => h.2 ?_⟩, h.2⟩⟩
            rw [mem_cons]; left; omega

theorem remove_spec (l r : Token) (hl : Normal l) (hr : Normal r) :
    ∃ l', remove l r = some l' ∧ Normal l' ∧ ∀ c, Mem c l' ↔ Mem c l ∧ ¬ Mem c r := by
  have := removeGo_spec (weight l + weight r + 1) [] l r hl hr
    (fun c h => absurd h (mem_nil c)) (by omega)
  simpa [remove] using this

end Token
end Lexertl
