import Verif.Proofs.Act
import Verif.Proofs.StringToken
import Verif.Proofs.Scan

/-
Charsets of wide characters are cut into sequences of byte charsets: which byte
sequences the slices contain, and the tree built from them.
-/
namespace Lexertl.Slice
open Spec

/-- The bytes `bs` lie in the columns of `row`. -/
def RowHas : List Token → List Nat → Prop
  | [], [] => True
  | t :: ts, b :: bs => Mem b t ∧ RowHas ts bs
  | _, _ => False

/-- Some row contains the bytes. -/
def Has (d : Slices) (bs : List Nat) : Prop := ∃ row ∈ d, RowHas row bs

/-- All rows have `n` columns of byte charsets. -/
def Good (n : Nat) (d : Slices) : Prop := ∀ row ∈ d, row.length = n ∧ ∀ t ∈ row, GoodTok t

theorem has_cons (row : List Token) (d : Slices) (bs : List Nat) :
    Has (row :: d) bs ↔ RowHas row bs ∨ Has d bs := by simp [Has]

theorem mem_ordered (a b c : Nat) : Mem c (orderedToken a b) ↔ (a ≤ c ∧ c ≤ b) ∨ (b ≤ c ∧ c ≤ a) := by
  simp only [Mem, orderedToken, List.mem_singleton, exists_eq_left]
  split <;> simp only <;> omega

theorem ordered_good (a b : Nat) (ha : a ≤ 255) (hb : b ≤ 255) : GoodTok (orderedToken a b) := by
  refine ⟨⟨?_, by simp [orderedToken]⟩, by simp [orderedToken], ?_⟩
  all_goals
    intro r hr
    simp only [orderedToken, List.mem_singleton] at hr
    subst hr
    split <;> simp only <;> omega

theorem insertToken_good {a b : Token} (ha : GoodTok a) (hb : GoodTok b) :
    GoodTok (Token.insertToken a b) ∧ ∀ c, Mem c (Token.insertToken a b) ↔ Mem c a ∨ Mem c b := by
  obtain ⟨h1, h2⟩ := Token.insertToken_spec a b ha.1 hb.1.1
  refine ⟨⟨h1, ?_, ?_⟩, h2⟩
  · intro h
    obtain ⟨r, hr⟩ := List.exists_mem_of_ne_nil _ ha.2.1
    have : Mem r.1 (Token.insertToken a b) := (h2 _).2 (.inl ⟨r, hr, Nat.le_refl _, ha.1.1 r hr⟩)
    rw [h] at this
    exact Token.mem_nil _ this
  · intro r hr
    have hm : Mem r.2 (Token.insertToken a b) := ⟨r, hr, h1.1 r hr, Nat.le_refl _⟩
    rcases (h2 _).1 hm with ⟨x, hx, _, h⟩ | ⟨x, hx, _, h⟩
    · exact Nat.le_trans h (ha.2.2 x hx)
    · exact Nat.le_trans h (hb.2.2 x hx)

theorem insertRow2_spec (t t2 : Token) (ht : GoodTok t) (ht2 : GoodTok t2) : ∀ d : Slices, Good 2 d →
    Good 2 (insertRow2 t t2 d) ∧ (∀ bs, Has (insertRow2 t t2 d) bs ↔ Has d bs ∨ RowHas [t, t2] bs) ∧
    (insertRow2 t t2 d).length ≤ d.length + 1 ∧ insertRow2 t t2 d ≠ [] := by
  intro d
  induction d with
  | nil =>
    intro _
    refine ⟨?_, fun bs => by simp [insertRow2, Has], by simp [insertRow2], by simp [insertRow2]⟩
    intro row hr
    simp only [insertRow2, List.mem_singleton] at hr
    subst hr
    exact ⟨rfl, by simp [ht, ht2]⟩
  | cons row d ih =>
    intro hg
    have hrow := hg row (by simp)
    obtain ⟨i1, i2, i3, i4⟩ := ih fun r hr => hg r (by simp [hr])
    match row, hrow with
    | [a, b], hrow =>
      simp only [insertRow2]
      split
      · rename_i h
        simp only [beq_iff_eq] at h
        subst h
        obtain ⟨g1, g2⟩ := insertToken_good (hrow.2 b (by simp)) ht2
        refine ⟨?_, fun bs => ?_, by simp, by simp⟩
        · intro r hr
          rcases List.mem_cons.1 hr with rfl | hr
          · exact ⟨rfl, by simp [ht, g1]⟩
          · exact hg r (by simp [hr])
        · rw [has_cons, has_cons]
          have : RowHas [t, Token.insertToken b t2] bs ↔ RowHas [t, b] bs ∨ RowHas [t, t2] bs := by
            match bs with
            | [] => simp [RowHas]
            | [_] => simp [RowHas]
            | [x, y] =>
              simp only [RowHas, and_true, g2]
              constructor
              · rintro ⟨h1, h2 | h2⟩
                · exact .inl ⟨h1, h2⟩
                · exact .inr ⟨h1, h2⟩
              · rintro (⟨h1, h2⟩ | ⟨h1, h2⟩)
                · exact ⟨h1, .inl h2⟩
                · exact ⟨h1, .inr h2⟩
            | _ :: _ :: _ :: _ => simp [RowHas]
          rw [this]
          constructor
          · rintro ((h | h) | h)
            · exact .inl (.inl h)
            · exact .inr h
            · exact .inl (.inr h)
          · rintro ((h | h) | h)
            · exact .inl (.inl h)
            · exact .inr h
            · exact .inl (.inr h)
      · refine ⟨?_, fun bs => ?_, by simp; omega, by simp⟩
        · intro r hr
          rcases List.mem_cons.1 hr with rfl | hr
          · exact hg _ (by simp)
          · exact i1 r hr
        · rw [has_cons, has_cons, i2, or_assoc]
    | [], hrow => simp at hrow
    | [_], hrow => simp at hrow
    | _ :: _ :: _ :: _, hrow => simp at hrow

theorem insertRow3_spec (t t2 t3 : Token) (ht : GoodTok t) (ht2 : GoodTok t2) (ht3 : GoodTok t3) :
    ∀ d : Slices, Good 3 d → Good 3 (insertRow3 t t2 t3 d) ∧
    (∀ bs, Has (insertRow3 t t2 t3 d) bs ↔ Has d bs ∨ RowHas [t, t2, t3] bs) ∧
    (insertRow3 t t2 t3 d).length ≤ d.length + 1 ∧ insertRow3 t t2 t3 d ≠ [] := by
  intro d
  induction d with
  | nil =>
    intro _
    refine ⟨?_, fun bs => by simp [insertRow3, Has], by simp [insertRow3], by simp [insertRow3]⟩
    intro row hr
    simp only [insertRow3, List.mem_singleton] at hr
    subst hr
    exact ⟨rfl, by simp [ht, ht2, ht3]⟩
  | cons row d ih =>
    intro hg
    have hrow := hg row (by simp)
    obtain ⟨i1, i2, i3, i4⟩ := ih fun r hr => hg r (by simp [hr])
    match row, hrow with
    | [a, b, c], hrow =>
      simp only [insertRow3]
      split
      · rename_i h
        simp only [Bool.and_eq_true, beq_iff_eq] at h
        obtain ⟨rfl, rfl⟩ := h
        obtain ⟨g1, g2⟩ := insertToken_good (hrow.2 c (by simp)) ht3
        refine ⟨?_, fun bs => ?_, by simp, by simp⟩
        · intro r hr
          rcases List.mem_cons.1 hr with rfl | hr
          · exact ⟨rfl, by simp [ht, ht2, g1]⟩
          · exact hg r (by simp [hr])
        · rw [has_cons, has_cons]
          have : RowHas [t, b, Token.insertToken c t3] bs ↔ RowHas [t, b, c] bs ∨ RowHas [t, b, t3] bs := by
            match bs with
            | [] => simp [RowHas]
            | [_] => simp [RowHas]
            | [_, _] => simp [RowHas]
            | [x, y, z] =>
              simp only [RowHas, and_true, g2]
              constructor
              · rintro ⟨h1, h2, h3 | h3⟩
                · exact .inl ⟨h1, h2, h3⟩
                · exact .inr ⟨h1, h2, h3⟩
              · rintro (⟨h1, h2, h3⟩ | ⟨h1, h2, h3⟩)
                · exact ⟨h1, h2, .inl h3⟩
                · exact ⟨h1, h2, .inr h3⟩
            | _ :: _ :: _ :: _ :: _ => simp [RowHas]
          rw [this]
          constructor
          · rintro ((h | h) | h)
            · exact .inl (.inl h)
            · exact .inr h
            · exact .inl (.inr h)
          · rintro ((h | h) | h)
            · exact .inl (.inl h)
            · exact .inr h
            · exact .inl (.inr h)
      · refine ⟨?_, fun bs => ?_, by simp; omega, by simp⟩
        · intro r hr
          rcases List.mem_cons.1 hr with rfl | hr
          · exact hg _ (by simp)
          · exact i1 r hr
        · rw [has_cons, has_cons, i2, or_assoc]
    | [], hrow => simp at hrow
    | [_], hrow => simp at hrow
    | [_, _], hrow => simp at hrow
    | _ :: _ :: _ :: _ :: _, hrow => simp at hrow

/-- What a slicing step adds to the slices. -/
structure Adds (n k : Nat) (P : List Nat → Prop) (d d' : Slices) : Prop where
  good : Good n d'
  has : ∀ bs, Has d' bs ↔ Has d bs ∨ P bs
  len : d'.length ≤ d.length + k
  ne : d' ≠ []

theorem Adds.trans {n k l : Nat} {P Q : List Nat → Prop} {d d' d'' : Slices} (h : Adds n k P d d')
    (g : Adds n l Q d' d'') : Adds n (k + l) (fun bs => P bs ∨ Q bs) d d'' :=
  ⟨g.good, fun bs => by rw [g.has, h.has, or_assoc], by have := h.len; have := g.len; omega, g.ne⟩

theorem Adds.congr {n k l : Nat} {P Q : List Nat → Prop} {d d' : Slices} (h : Adds n k P d d')
    (hk : k ≤ l) (hp : ∀ bs, P bs ↔ Q bs) : Adds n l Q d d' :=
  ⟨h.good, fun bs => by rw [h.has, hp], by have := h.len; omega, h.ne⟩

theorem adds2 {t t2 : Token} (ht : GoodTok t) (ht2 : GoodTok t2) {d : Slices} (hd : Good 2 d) :
    Adds 2 1 (RowHas [t, t2]) d (insertRow2 t t2 d) :=
  have h := insertRow2_spec t t2 ht ht2 d hd
  ⟨h.1, h.2.1, h.2.2.1, h.2.2.2⟩

theorem adds3 {t t2 t3 : Token} (ht : GoodTok t) (ht2 : GoodTok t2) (ht3 : GoodTok t3) {d : Slices}
    (hd : Good 3 d) : Adds 3 1 (RowHas [t, t2, t3]) d (insertRow3 t t2 t3 d) :=
  have h := insertRow3_spec t t2 t3 ht ht2 ht3 d hd
  ⟨h.1, h.2.1, h.2.2.1, h.2.2.2⟩

/-- Two bytes whose value lies in `[a, b]`. -/
def Pair (a b : Nat) (bs : List Nat) : Prop :=
  ∃ x y, bs = [x, y] ∧ y < 256 ∧ a ≤ 256 * x + y ∧ 256 * x + y ≤ b

theorem rowHas2 (s t : Token) (bs : List Nat) : RowHas [s, t] bs ↔ ∃ x y, bs = [x, y] ∧ Mem x s ∧ Mem y t := by
  match bs with
  | [] => simp [RowHas]
  | [_] => simp [RowHas]
  | [x, y] =>
    simp only [RowHas, and_true]
    constructor
    · intro h; exact ⟨x, y, rfl, h⟩
    · rintro ⟨_, _, h, h'⟩; cases h; exact h'
  | _ :: _ :: _ :: _ => simp [RowHas]

theorem rowHas3 (s t u : Token) (bs : List Nat) :
    RowHas [s, t, u] bs ↔ ∃ x y z, bs = [x, y, z] ∧ Mem x s ∧ Mem y t ∧ Mem z u := by
  match bs with
  | [] => simp [RowHas]
  | [_] => simp [RowHas]
  | [_, _] => simp [RowHas]
  | [x, y, z] =>
    simp only [RowHas, and_true]
    constructor
    · intro h; exact ⟨x, y, z, rfl, h⟩
    · rintro ⟨_, _, _, h, h'⟩; cases h; exact h'
  | _ :: _ :: _ :: _ :: _ => simp [RowHas]

theorem slice16_spec (r : Range) (hr : r.1 % 65536 ≤ r.2 % 65536) (d : Slices) (hd : Good 2 d) :
    Adds 2 3 (Pair (r.1 % 65536) (r.2 % 65536)) d (slice16 r d) := by
  unfold slice16
  simp only
  have e1 : r.1 % 65536 = 256 * (r.1 / 256 % 256) + r.1 % 256 := by omega
  have e2 : r.2 % 65536 = 256 * (r.2 / 256 % 256) + r.2 % 256 := by omega
  rw [e1, e2] at hr ⊢
  have b1 : r.1 / 256 % 256 < 256 := Nat.mod_lt _ (by decide)
  have b2 : r.1 % 256 < 256 := Nat.mod_lt _ (by decide)
  have b3 : r.2 / 256 % 256 < 256 := Nat.mod_lt _ (by decide)
  have b4 : r.2 % 256 < 256 := Nat.mod_lt _ (by decide)
  generalize r.1 / 256 % 256 = fm at *
  generalize r.1 % 256 = fl at *
  generalize r.2 / 256 % 256 = sm at *
  generalize r.2 % 256 = sl at *
  split
  · subst fm
    refine (adds2 (ordered_good _ _ (by omega) (by omega)) (ordered_good _ _ (by omega) (by omega)) hd).congr
      (by omega) fun bs => ?_
    rw [rowHas2]
    unfold Pair
    refine exists_congr fun x => exists_congr fun y => and_congr_right fun _ => ?_
    rw [mem_ordered, mem_ordered]
    omega
  · have s1 := adds2 (ordered_good fm fm (by omega) (by omega)) (ordered_good fl 255 (by omega) (by omega)) hd
    split
    · have s2 := adds2 (ordered_good (fm + 1) (sm - 1) (by omega) (by omega))
        (ordered_good 0 255 (by omega) (by omega)) s1.good
      have s3 := adds2 (ordered_good sm sm (by omega) (by omega)) (ordered_good 0 sl (by omega) (by omega)) s2.good
      refine ((s1.trans s2).trans s3).congr (by omega) fun bs => ?_
      simp only [rowHas2]
      unfold Pair
      constructor
      · rintro ((⟨x, y, rfl, h1, h2⟩ | ⟨x, y, rfl, h1, h2⟩) | ⟨x, y, rfl, h1, h2⟩)
        all_goals
          rw [mem_ordered] at h1 h2
          exact ⟨x, y, rfl, by omega, by omega, by omega⟩
      · rintro ⟨x, y, rfl, h1, h2, h3⟩
        by_cases h4 : x = fm
        · refine .inl (.inl ⟨x, y, rfl, ?_, ?_⟩) <;> rw [mem_ordered] <;> omega
        · by_cases h5 : x = sm
          · refine .inr ⟨x, y, rfl, ?_, ?_⟩ <;> rw [mem_ordered] <;> omega
          · refine .inl (.inr ⟨x, y, rfl, ?_, ?_⟩) <;> rw [mem_ordered] <;> omega
    · have s3 := adds2 (ordered_good sm sm (by omega) (by omega)) (ordered_good 0 sl (by omega) (by omega)) s1.good
      refine (s1.trans s3).congr (by omega) fun bs => ?_
      simp only [rowHas2]
      unfold Pair
      constructor
      · rintro (⟨x, y, rfl, h1, h2⟩ | ⟨x, y, rfl, h1, h2⟩)
        all_goals
          rw [mem_ordered] at h1 h2
          exact ⟨x, y, rfl, by omega, by omega, by omega⟩
      · rintro ⟨x, y, rfl, h1, h2, h3⟩
        by_cases h4 : x = fm
        · refine .inl ⟨x, y, rfl, ?_, ?_⟩ <;> rw [mem_ordered] <;> omega
        · refine .inr ⟨x, y, rfl, ?_, ?_⟩ <;> rw [mem_ordered] <;> omega

/-- The ranges actually accepted for the range `r` by the 24 bit slices: when `r`
spans three or more planes the planes strictly between are replaced by those between
two of the middle bytes. -/
def widen24 (r : Range) : Token :=
  if r.2 / 65536 ≤ r.1 / 65536 + 1 then [r]
  else
    let a := toByte ((r.1 / 256 % 256 : Nat) + 1)
    let b := toByte ((r.2 / 256 % 256 : Nat) - 1)
    [(r.1, r.1 / 65536 * 65536 + 65535), (min a b * 65536, max a b * 65536 + 65535), (r.2 / 65536 * 65536, r.2)]

/-- Three bytes whose value lies in `t`. -/
def Tri (t : Token) (bs : List Nat) : Prop :=
  ∃ x y z, bs = [x, y, z] ∧ y < 256 ∧ z < 256 ∧ Mem (65536 * x + 256 * y + z) t

theorem slices3_fold (h : Nat) (hh : h ≤ 255) : ∀ (rows : Slices) (d : Slices), Good 2 rows → Good 3 d → rows ≠ [] →
    Adds 3 rows.length (fun bs => ∃ x y z, bs = [x, y, z] ∧ x = h ∧ Has rows [y, z]) d
      (rows.foldl (fun d row =>
        match row with
        | [a, b] => insertRow3 (orderedToken h h) a b d
        | _ => d) d) := by
  intro rows
  induction rows with
  | nil => intro _ _ _ h; exact absurd rfl h
  | cons row rows ih =>
    intro d hr hd _
    have hrow := hr row (by simp)
    match row, hrow with
    | [a, b], hrow =>
      simp only [List.foldl_cons]
      have s1 := adds3 (ordered_good h h hh hh) (hrow.2 a (by simp)) (hrow.2 b (by simp)) hd
      have e : ∀ bs, RowHas [orderedToken h h, a, b] bs ↔
          ∃ x y z, bs = [x, y, z] ∧ x = h ∧ RowHas [a, b] [y, z] := by
        intro bs
        rw [rowHas3]
        refine exists_congr fun x => exists_congr fun y => exists_congr fun z => and_congr_right fun _ => ?_
        rw [mem_ordered]
        simp only [RowHas, and_true]
        refine and_congr_left fun _ => ?_
        omega
      cases rows with
      | nil =>
        refine s1.congr (by simp) fun bs => ?_
        rw [e]
        simp only [has_cons]
        simp [Has]
      | cons row' rows' =>
        have s2 := ih _ (fun r hr' => hr r (by simp [hr'])) s1.good (by simp)
        refine (s1.trans s2).congr (by simp; omega) fun bs => ?_
        rw [e]
        constructor
        · rintro (⟨x, y, z, h1, h2, h3⟩ | ⟨x, y, z, h1, h2, h3⟩)
          · exact ⟨x, y, z, h1, h2, (has_cons ..).2 (.inl h3)⟩
          · exact ⟨x, y, z, h1, h2, (has_cons ..).2 (.inr h3)⟩
        · rintro ⟨x, y, z, h1, h2, h3⟩
          rcases (has_cons ..).1 h3 with h3 | h3
          · exact .inl ⟨x, y, z, h1, h2, h3⟩
          · exact .inr ⟨x, y, z, h1, h2, h3⟩
    | [], hrow => simp at hrow
    | [_], hrow => simp at hrow
    | _ :: _ :: _ :: _, hrow => simp at hrow

theorem slice24_spec (r : Range) (hr : r.1 ≤ r.2) (hw : r.2 < 16777216) (d : Slices) (hd : Good 3 d) :
    Adds 3 5 (Tri (widen24 r)) d (slice24 r d) := by
  unfold slice24
  simp only
  have q1 : r.1 / 65536 % 256 = r.1 / 65536 := by omega
  have q2 : r.2 / 65536 % 256 = r.2 / 65536 := by omega
  rw [q1, q2]
  split
  · rename_i heq
    have s0 := slice16_spec r (by omega) [] (by intro _ h; cases h)
    have hlen := s0.len
    have s1 := slices3_fold (r.1 / 65536) (by omega) _ d s0.good hd s0.ne
    refine s1.congr (by simp at hlen; omega) fun bs => ?_
    unfold Tri
    refine exists_congr fun x => exists_congr fun y => exists_congr fun z => and_congr_right fun _ => ?_
    rw [s0.has, widen24, if_pos (by omega)]
    simp only [Mem, List.mem_singleton, exists_eq_left, Pair]
    constructor
    · rintro ⟨rfl, ⟨_, h, _⟩ | ⟨y', z', h, h1, h2, h3⟩⟩
      · cases h
      · cases h
        omega
    · rintro ⟨h1, h2, h3, h4⟩
      have hx : x = r.1 / 65536 := by omega
      exact ⟨hx, .inr ⟨y, z, rfl, by omega, by omega, by omega⟩⟩
  · rename_i hne
    have b1 : r.1 / 65536 < 256 := by omega
    have b2 : r.2 / 65536 < 256 := by omega
    have b3 : r.1 / 256 % 256 < 256 := Nat.mod_lt _ (by decide)
    have b4 : r.2 / 256 % 256 < 256 := Nat.mod_lt _ (by decide)
    have b5 : r.1 % 256 < 256 := Nat.mod_lt _ (by decide)
    have b6 : r.2 % 256 < 256 := Nat.mod_lt _ (by decide)
    have hlt : r.1 / 65536 < r.2 / 65536 := by omega
    have e1 : r.1 = 65536 * (r.1 / 65536) + 256 * (r.1 / 256 % 256) + r.1 % 256 := by omega
    have e2 : r.2 = 65536 * (r.2 / 65536) + 256 * (r.2 / 256 % 256) + r.2 % 256 := by omega
    have c1 : toByte ((r.1 / 256 % 256 : Nat) + 1) ≤ 255 := by unfold toByte; omega
    have c2 : toByte ((r.2 / 256 % 256 : Nat) - 1) ≤ 255 := by unfold toByte; omega
    unfold widen24
    simp only
    obtain ⟨a, b⟩ := r
    simp only at *
    generalize toByte ((a / 256 % 256 : Nat) + 1) = u at *
    generalize toByte ((b / 256 % 256 : Nat) - 1) = v at *
    generalize a / 65536 = fh at *
    generalize b / 65536 = sh at *
    generalize a / 256 % 256 = fm at *
    generalize b / 256 % 256 = sm at *
    generalize a % 256 = fl at *
    generalize b % 256 = sl at *
    subst a b
    have go : ∀ a b, a ≤ 255 → b ≤ 255 → GoodTok (orderedToken a b) := ordered_good
    have s1 := adds3 (go fh fh (by omega) (by omega)) (go fm fm (by omega) (by omega))
      (go fl 255 (by omega) (by omega)) hd
    -- the rest of the first plane
    have s2 : Adds 3 2 (Tri [(65536 * fh + 256 * fm + fl, fh * 65536 + 65535)]) d
        (if fm ≠ 255 then insertRow3 (orderedToken fh fh) (orderedToken (fm + 1) 255) (orderedToken 0 255)
          (insertRow3 (orderedToken fh fh) (orderedToken fm fm) (orderedToken fl 255) d)
         else insertRow3 (orderedToken fh fh) (orderedToken fm fm) (orderedToken fl 255) d) := by
      split
      · have s2 := adds3 (go fh fh (by omega) (by omega)) (go (fm + 1) 255 (by omega) (by omega))
          (go 0 255 (by omega) (by omega)) s1.good
        refine (s1.trans s2).congr (by omega) fun bs => ?_
        simp only [rowHas3]
        unfold Tri
        simp only [mem_ordered]
        simp only [Mem, List.mem_singleton, exists_eq_left]
        constructor
        · rintro (⟨x, y, z, rfl, h1, h2, h3⟩ | ⟨x, y, z, rfl, h1, h2, h3⟩)
          all_goals exact ⟨x, y, z, rfl, by omega, by omega, by omega, by omega⟩
        · rintro ⟨x, y, z, rfl, h1, h2, h3, h4⟩
          have hx : x = fh := by omega
          subst hx
          by_cases hy : y = fm
          · exact .inl ⟨x, y, z, rfl, by omega, by omega, by omega⟩
          · exact .inr ⟨x, y, z, rfl, by omega, by omega, by omega⟩
      · refine s1.congr (by omega) fun bs => ?_
        simp only [rowHas3]
        unfold Tri
        simp only [mem_ordered]
        simp only [Mem, List.mem_singleton, exists_eq_left]
        constructor
        · rintro ⟨x, y, z, rfl, h1, h2, h3⟩
          exact ⟨x, y, z, rfl, by omega, by omega, by omega, by omega⟩
        · rintro ⟨x, y, z, rfl, h1, h2, h3, h4⟩
          exact ⟨x, y, z, rfl, by omega, by omega, by omega⟩
    generalize (if fm ≠ 255 then insertRow3 (orderedToken fh fh) (orderedToken (fm + 1) 255) (orderedToken 0 255)
          (insertRow3 (orderedToken fh fh) (orderedToken fm fm) (orderedToken fl 255) d)
         else insertRow3 (orderedToken fh fh) (orderedToken fm fm) (orderedToken fl 255) d) = d2 at *
    -- the last plane
    have s4 : ∀ d3 : Slices, Good 3 d3 → Adds 3 2 (Tri [(sh * 65536, 65536 * sh + 256 * sm + sl)]) d3
        (if sm ≠ 0 then
          insertRow3 (orderedToken sh sh) (orderedToken sm sm) (orderedToken 0 sl)
            (insertRow3 (orderedToken sh sh) (orderedToken 0 (sm - 1)) (orderedToken 0 255) d3)
         else insertRow3 (orderedToken sh sh) (orderedToken 0 sm) (orderedToken 0 sl) d3) := by
      intro d3 g3
      split
      · have t1 := adds3 (go sh sh (by omega) (by omega)) (go 0 (sm - 1) (by omega) (by omega))
          (go 0 255 (by omega) (by omega)) g3
        have t2 := adds3 (go sh sh (by omega) (by omega)) (go sm sm (by omega) (by omega))
          (go 0 sl (by omega) (by omega)) t1.good
        refine (t1.trans t2).congr (by omega) fun bs => ?_
        simp only [rowHas3]
        unfold Tri
        simp only [mem_ordered]
        simp only [Mem, List.mem_singleton, exists_eq_left]
        constructor
        · rintro (⟨x, y, z, rfl, h1, h2, h3⟩ | ⟨x, y, z, rfl, h1, h2, h3⟩)
          all_goals exact ⟨x, y, z, rfl, by omega, by omega, by omega, by omega⟩
        · rintro ⟨x, y, z, rfl, h1, h2, h3, h4⟩
          have hx : x = sh := by omega
          subst hx
          by_cases hy : y = sm
          · exact .inr ⟨x, y, z, rfl, by omega, by omega, by omega⟩
          · exact .inl ⟨x, y, z, rfl, by omega, by omega, by omega⟩
      · rename_i hz
        have hz : sm = 0 := by omega
        subst hz
        have t1 := adds3 (go sh sh (by omega) (by omega)) (go 0 0 (by omega) (by omega))
          (go 0 sl (by omega) (by omega)) g3
        refine t1.congr (by omega) fun bs => ?_
        simp only [rowHas3]
        unfold Tri
        simp only [mem_ordered]
        simp only [Mem, List.mem_singleton, exists_eq_left]
        constructor
        · rintro ⟨x, y, z, rfl, h1, h2, h3⟩
          exact ⟨x, y, z, rfl, by omega, by omega, by omega, by omega⟩
        · rintro ⟨x, y, z, rfl, h1, h2, h3, h4⟩
          exact ⟨x, y, z, rfl, by omega, by omega, by omega⟩
    by_cases h3 : sh > fh + 1
    · rw [if_pos h3, if_neg (by omega)]
      have s3 := adds3 (go u v c1 c2) (go 0 255 (by omega) (by omega)) (go 0 255 (by omega) (by omega)) s2.good
      refine ((s2.trans s3).trans (s4 _ s3.good)).congr (by omega) fun bs => ?_
      simp only [rowHas3]
      unfold Tri
      simp only [mem_ordered]
      simp only [Mem, List.mem_singleton, exists_eq_left, List.mem_cons, List.not_mem_nil, or_false,
        exists_eq_or_imp]
      constructor
      · rintro ((⟨x, y, z, rfl, h1, h2, h4⟩ | ⟨x, y, z, rfl, h1, h2, h4⟩) | ⟨x, y, z, rfl, h1, h2, h4⟩)
        · exact ⟨x, y, z, rfl, by omega, by omega, .inl h4⟩
        · exact ⟨x, y, z, rfl, by omega, by omega, .inr (.inl (by omega))⟩
        · exact ⟨x, y, z, rfl, by omega, by omega, .inr (.inr h4)⟩
      · rintro ⟨x, y, z, rfl, h1, h2, h4 | h4 | h4⟩
        · exact .inl (.inl ⟨x, y, z, rfl, by omega, by omega, h4⟩)
        · exact .inl (.inr ⟨x, y, z, rfl, by omega, by omega, by omega⟩)
        · exact .inr ⟨x, y, z, rfl, by omega, by omega, h4⟩
    · rw [if_neg h3, if_pos (by omega)]
      refine (s2.trans (s4 _ s2.good)).congr (by omega) fun bs => ?_
      unfold Tri
      simp only [Mem, List.mem_singleton, exists_eq_left]
      constructor
      · rintro (⟨x, y, z, rfl, h1, h2, h4⟩ | ⟨x, y, z, rfl, h1, h2, h4⟩)
        all_goals exact ⟨x, y, z, rfl, by omega, by omega, by omega⟩
      · rintro ⟨x, y, z, rfl, h1, h2, h4⟩
        by_cases hx : x = fh
        · exact .inl ⟨x, y, z, rfl, by omega, by omega, by omega⟩
        · exact .inr ⟨x, y, z, rfl, by omega, by omega, by omega⟩

/-- The characters accepted for the charset `t` of a compressed machine. -/
def accepted (char24 : Bool) (t : Token) : Token := if char24 then t.flatMap widen24 else t

/-- Bytes per character of a compressed machine. -/
def width (char24 : Bool) : Nat := if char24 then 3 else 2

/-- Largest value of that many bytes. -/
def top (char24 : Bool) : Nat := if char24 then 16777215 else 65535

theorem charBytes2 (c : Nat) : charBytes 2 c = [c / 256 % 256, c % 256] := by
  simp [charBytes, List.range, List.range.loop]

theorem charBytes3 (c : Nat) : charBytes 3 c = [c / 65536 % 256, c / 256 % 256, c % 256] := by
  simp [charBytes, List.range, List.range.loop]

theorem pair_iff (r : Range) (hw : r.2 ≤ 65535) (bs : List Nat) :
    Pair r.1 r.2 bs ↔ ∃ c, Mem c [r] ∧ bs = charBytes 2 c := by
  simp only [charBytes2, Mem, List.mem_singleton, exists_eq_left]
  constructor
  · rintro ⟨x, y, rfl, h1, h2, h3⟩
    refine ⟨256 * x + y, ⟨h2, h3⟩, ?_⟩
    rw [show (256 * x + y) / 256 % 256 = x from by omega, show (256 * x + y) % 256 = y from by omega]
  · rintro ⟨c, ⟨h1, h2⟩, rfl⟩
    exact ⟨_, _, rfl, by omega, by omega, by omega⟩

theorem tri_iff (t : Token) (hw : Within 16777215 t) (bs : List Nat) :
    Tri t bs ↔ ∃ c, Mem c t ∧ bs = charBytes 3 c := by
  simp only [charBytes3]
  constructor
  · rintro ⟨x, y, z, rfl, h1, h2, r, hr, h3, h4⟩
    have := hw r hr
    refine ⟨65536 * x + 256 * y + z, ⟨r, hr, h3, h4⟩, ?_⟩
    rw [show (65536 * x + 256 * y + z) / 65536 % 256 = x from by omega,
      show (65536 * x + 256 * y + z) / 256 % 256 = y from by omega,
      show (65536 * x + 256 * y + z) % 256 = z from by omega]
  · rintro ⟨c, ⟨r, hr, h1, h2⟩, rfl⟩
    have := hw r hr
    refine ⟨_, _, _, rfl, by omega, by omega, r, hr, ?_⟩
    rw [show 65536 * (c / 65536 % 256) + 256 * (c / 256 % 256) + c % 256 = c from by omega]
    exact ⟨h1, h2⟩

theorem widen24_within (r : Range) (hr : r.1 ≤ r.2) (hw : r.2 ≤ 16777215) : Within 16777215 (widen24 r) := by
  intro x hx
  unfold widen24 at hx
  split at hx
  · simp only [List.mem_singleton] at hx
    subst hx; exact hw
  · have c1 : toByte ((r.1 / 256 % 256 : Nat) + 1) ≤ 255 := by unfold toByte; omega
    have c2 : toByte ((r.2 / 256 % 256 : Nat) - 1) ≤ 255 := by unfold toByte; omega
    simp only [List.mem_cons, List.not_mem_nil, or_false] at hx
    rcases hx with rfl | rfl | rfl <;> simp only <;> omega

/-- One range of either width. -/
theorem slice_spec (char24 : Bool) (r : Range) (hr : r.1 ≤ r.2) (hw : r.2 ≤ top char24) (d : Slices)
    (hd : Good (width char24) d) :
    Adds (width char24) 5 (fun bs => ∃ c, Mem c (accepted char24 [r]) ∧ bs = charBytes (width char24) c) d
      (if char24 then slice24 r d else slice16 r d) := by
  cases char24 with
  | false =>
    simp only [width, top, accepted, Bool.false_eq_true, if_false] at hw hd ⊢
    have := slice16_spec r (by omega) d hd
    refine this.congr (by omega) fun bs => ?_
    rw [← pair_iff r hw, show r.1 % 65536 = r.1 from by omega, show r.2 % 65536 = r.2 from by omega]
  | true =>
    simp only [width, top, accepted, if_true, List.flatMap_cons, List.flatMap_nil, List.append_nil] at hw hd ⊢
    refine (slice24_spec r hr (by omega) d hd).congr (by omega) fun bs => ?_
    rw [tri_iff _ (widen24_within r hr hw)]

theorem mem_accepted_cons (char24 : Bool) (r : Range) (t : Token) (c : Nat) :
    Mem c (accepted char24 (r :: t)) ↔ Mem c (accepted char24 [r]) ∨ Mem c (accepted char24 t) := by
  cases char24 with
  | false => simp [accepted, Mem]
  | true =>
    simp only [accepted, if_true, List.flatMap_cons, List.flatMap_nil, List.append_nil]
    exact Token.mem_append ..

theorem sliceFold_spec (char24 : Bool) : ∀ (t : Token) (d : Slices), (∀ r ∈ t, r.1 ≤ r.2) → Within (top char24) t →
    Good (width char24) d → t ≠ [] →
    Adds (width char24) (5 * t.length)
      (fun bs => ∃ c, Mem c (accepted char24 t) ∧ bs = charBytes (width char24) c) d
      (t.foldl (fun d r => if char24 then slice24 r d else slice16 r d) d) := by
  intro t
  induction t with
  | nil => intro _ _ _ _ h; exact absurd rfl h
  | cons r t ih =>
    intro d hr hw hd _
    have s1 := slice_spec char24 r (hr r (by simp)) (hw r (by simp)) d hd
    rw [List.foldl_cons]
    cases t with
    | nil => exact s1.congr (by simp) fun _ => Iff.rfl
    | cons r' t' =>
      have s2 := ih _ (fun x hx => hr x (by simp [hx])) (fun x hx => hw x (by simp [hx])) s1.good (by simp)
      refine (s1.trans s2).congr (by simp; omega) fun bs => ?_
      constructor
      · rintro (⟨c, h1, h2⟩ | ⟨c, h1, h2⟩)
        · exact ⟨c, (mem_accepted_cons ..).2 (.inl h1), h2⟩
        · exact ⟨c, (mem_accepted_cons ..).2 (.inr h1), h2⟩
      · rintro ⟨c, h1, h2⟩
        rcases (mem_accepted_cons ..).1 h1 with h1 | h1
        · exact .inl ⟨c, h1, h2⟩
        · exact .inr ⟨c, h1, h2⟩

/-- The slices of a charset: exactly the byte sequences of the accepted characters. -/
theorem sliceToken_spec (char24 : Bool) (t : Token) (hr : ∀ r ∈ t, r.1 ≤ r.2) (hw : Within (top char24) t)
    (hne : t ≠ []) : Good (width char24) (sliceToken char24 t) ∧ sliceToken char24 t ≠ [] ∧
      (sliceToken char24 t).length ≤ 5 * t.length ∧
      ∀ bs, Has (sliceToken char24 t) bs ↔ ∃ c, Mem c (accepted char24 t) ∧ bs = charBytes (width char24) c := by
  have h := sliceFold_spec char24 t [] hr hw (by intro _ h; cases h) hne
  refine ⟨h.good, h.ne, by rw [sliceToken]; simpa using h.len, fun bs => ?_⟩
  rw [sliceToken, h.has]
  simp [Has]

/-! The tree of the slices. -/

/-- Words of bytes. -/
def Bytes (P : List Nat → Prop) (w : List Sym) : Prop := ∃ bs, P bs ∧ w = bs.map .ch

theorem oneOf_bytes (t : Token) : OneOf t = Bytes (RowHas [t]) := by
  funext w; apply propext
  constructor
  · rintro ⟨c, h, rfl⟩; exact ⟨[c], ⟨h, trivial⟩, rfl⟩
  · rintro ⟨bs, h, rfl⟩
    match bs, h with
    | [c], h => exact ⟨c, h.1, rfl⟩
    | [], h => exact h.elim
    | _ :: _ :: _, h => exact h.2.elim

theorem rowHas_append : ∀ (s t : List Token) (bs : List Nat),
    RowHas (s ++ t) bs ↔ ∃ u v, bs = u ++ v ∧ RowHas s u ∧ RowHas t v := by
  intro s
  induction s with
  | nil =>
    intro t bs
    constructor
    · intro h; exact ⟨[], bs, rfl, trivial, h⟩
    · rintro ⟨u, v, rfl, h1, h2⟩
      match u, h1 with
      | [], _ => exact h2
      | _ :: _, h => exact h.elim
  | cons a s ih =>
    intro t bs
    constructor
    · intro h
      match bs, h with
      | b :: bs, h =>
        obtain ⟨u, v, rfl, h1, h2⟩ := (ih t bs).1 h.2
        exact ⟨b :: u, v, rfl, ⟨h.1, h1⟩, h2⟩
    · rintro ⟨u, v, rfl, h1, h2⟩
      match u, h1 with
      | b :: u, h1 => exact ⟨h1.1, (ih t (u ++ v)).2 ⟨u, v, rfl, h1.2, h2⟩⟩

theorem cat_bytes (s t : List Token) : Cat (Bytes (RowHas s)) (Bytes (RowHas t)) = Bytes (RowHas (s ++ t)) := by
  funext w; apply propext
  constructor
  · rintro ⟨_, _, rfl, ⟨u, h1, rfl⟩, ⟨v, h2, rfl⟩⟩
    exact ⟨u ++ v, (rowHas_append ..).2 ⟨u, v, rfl, h1, h2⟩, by simp⟩
  · rintro ⟨bs, h, rfl⟩
    obtain ⟨u, v, rfl, h1, h2⟩ := (rowHas_append ..).1 h
    exact ⟨_, _, by simp, ⟨u, h1, rfl⟩, ⟨v, h2, rfl⟩⟩

theorem rowFold_built (tr : Traits) (p : PState) : ∀ (ts done : List Token) (res : M PState) (k : Nat),
    Built tr (fun s => [s]) (Bytes (RowHas done)) k false false p res → (∀ t ∈ ts, GoodTok t) →
    Built tr (fun s => [s]) (Bytes (RowHas (done ++ ts))) (k + ts.length) false false p
      (res >>= fun q => ts.foldlM (fun p t => (p.pushRange tr t).sequence) q) := by
  intro ts
  induction ts with
  | nil =>
    intro done res k H _
    simp only [List.append_nil, List.length_nil, Nat.add_zero, List.foldlM_nil]
    rw [show (res >>= fun q => pure q) = res from bind_pure res]
    exact H
  | cons t ts ih =>
    intro done res k H hg
    have h1 := H.seq (fun q => .ok (q.pushRange tr t)) fun q => Built.range tr q t (hg t (by simp))
    rw [oneOf_bytes, cat_bytes] at h1
    have h2 := ih _ _ _ h1 fun x hx => hg x (by simp [hx])
    rw [List.append_assoc, show [t] ++ ts = t :: ts from rfl] at h2
    rw [List.length_cons, show k + (ts.length + 1) = k + 1 + ts.length from by omega]
    refine Eq.mp ?_ h2
    congr 1
    cases res <;> rfl

theorem row_built (tr : Traits) (row : List Token) (hne : row ≠ []) (hg : ∀ t ∈ row, GoodTok t) (p : PState) :
    Built tr (fun s => [s]) (Bytes (RowHas row)) row.length false false p (p.pushRow tr row) := by
  cases row with
  | nil => exact absurd rfl hne
  | cons t ts =>
    have h := Built.range tr p t (hg t (by simp))
    rw [oneOf_bytes] at h
    have := rowFold_built tr p ts [t] _ _ h fun x hx => hg x (by simp [hx])
    rw [List.length_cons, Nat.add_comm]
    exact this

theorem or_bytes (P Q : List Nat → Prop) :
    (fun w => Bytes P w ∨ Bytes Q w) = Bytes fun bs => P bs ∨ Q bs := by
  funext w; apply propext
  constructor
  · rintro (⟨u, h, rfl⟩ | ⟨u, h, rfl⟩)
    · exact ⟨u, .inl h, rfl⟩
    · exact ⟨u, .inr h, rfl⟩
  · rintro ⟨u, h | h, rfl⟩
    · exact .inl ⟨u, h, rfl⟩
    · exact .inr ⟨u, h, rfl⟩

theorem rowsFold_built (tr : Traits) (n : Nat) (hn : 0 < n) (p : PState) : ∀ (rows : Slices) (P : List Nat → Prop)
    (res : M PState) (k : Nat), Built tr (fun s => [s]) (Bytes P) k false false p res → Good n rows →
    Built tr (fun s => [s]) (Bytes fun bs => P bs ∨ Has rows bs) (k + n * rows.length) false false p
      (res >>= fun q => rows.foldlM (fun p row => do (← p.pushRow tr row).performOr) q) := by
  intro rows
  induction rows with
  | nil =>
    intro P res k H _
    simp only [List.length_nil, Nat.mul_zero, Nat.add_zero, List.foldlM_nil]
    rw [show (res >>= fun q => pure q) = res from bind_pure res]
    exact H.congr (by congr 1; funext bs; simp [Has])
  | cons row rows ih =>
    intro P res k H hg
    have hrow := hg row (by simp)
    have h1 := H.alt (fun q => q.pushRow tr row) fun q =>
      row_built tr row (by intro h; rw [h] at hrow; simp at hrow; omega) hrow.2 q
    rw [or_bytes] at h1
    have h2 := ih _ _ _ h1 fun x hx => hg x (by simp [hx])
    have h3 := h2.congr (K := Bytes fun bs => P bs ∨ Has (row :: rows) bs) (by
      congr 1; funext bs; rw [has_cons, or_assoc])
    rw [hrow.1] at h3
    rw [List.length_cons, show k + n * (rows.length + 1) = k + n + n * rows.length from by rw [Nat.mul_add]; omega]
    refine Eq.mp ?_ h3
    congr 1
    cases res <;> rfl

theorem rows_built (tr : Traits) (n : Nat) (hn : 0 < n) (rows : Slices) (hne : rows ≠ []) (hg : Good n rows)
    (p : PState) :
    Built tr (fun s => [s]) (Bytes (Has rows)) (n * rows.length) false false p (p.pushRows tr rows) := by
  cases rows with
  | nil => exact absurd rfl hne
  | cons row rows =>
    have hrow := hg row (by simp)
    have h := row_built tr row (by intro h; rw [h] at hrow; simp at hrow; omega) hrow.2 p
    have := rowsFold_built tr n hn p rows _ _ _ h fun x hx => hg x (by simp [hx])
    rw [hrow.1] at this
    rw [List.length_cons, show n * (rows.length + 1) = n + n * rows.length from by rw [Nat.mul_add]; omega]
    exact this.congr (by congr 1; funext bs; rw [has_cons])

end Lexertl.Slice
