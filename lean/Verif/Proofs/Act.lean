import Verif.Proofs.Ops
import Verif.Proofs.StringToken

/-
The tree built for an expression has exactly the words of the expression.
-/
namespace Lexertl
open Spec

/-- Which symbols a leaf token reads: the characters of the charsets with that
id, or the matching zero-width test. -/
def tokReads (tr : Traits) (m : CharsetMap) (tk : Nat) : Sym → Prop
  | .ch c => ∃ e ∈ m, e.2 = tk ∧ Mem c e.1
  | .bol => tk = tr.bolToken
  | .eol => tk = tr.eolToken

/-- Charset ids are distinct and different from the reserved tokens. -/
structure IdsOk (tr : Traits) (m : CharsetMap) : Prop where
  inj : ∀ a ∈ m, ∀ b ∈ m, a.2 = b.2 → a = b
  small : ∀ a ∈ m, a.2 + 2 < tr.npos
  npos : 2 < tr.npos

/-- Charset the lexer can hold in its tables: normal form, not empty, bytes only. -/
def GoodTok (t : Token) : Prop := Normal t ∧ t ≠ [] ∧ Within 255 t

/-- The charset map after looking up `t`. -/
def csLookup (tr : Traits) (m : CharsetMap) (t : Token) : CharsetMap :=
  match m.find? (fun e => e.1 == t) with
  | some _ => m
  | none => CharsetMap.insert t (tr.toId m.length) m

/-- `m'` arises from `m` by at most `k` lookups of good charsets. -/
inductive Grows (tr : Traits) : Nat → CharsetMap → CharsetMap → Prop
  | refl (k m) : Grows tr k m m
  | step (k m m' t) : Grows tr k m m' → GoodTok t → Grows tr (k + 1) m (csLookup tr m' t)

theorem Grows.mono {tr : Traits} {k l : Nat} {m m' : CharsetMap} (h : Grows tr k m m')
    (hl : k ≤ l) : Grows tr l m m' := by
  induction h generalizing l with
  | refl => exact .refl _ _
  | step k m m' t _ h2 ih =>
    obtain ⟨l, rfl⟩ : ∃ j, l = j + 1 := ⟨l - 1, by omega⟩
    exact .step _ _ _ _ (ih (by omega)) h2

theorem Grows.trans {tr : Traits} {k l : Nat} {m m' m'' : CharsetMap} (h : Grows tr k m m')
    (h' : Grows tr l m' m'') : Grows tr (k + l) m m'' := by
  induction h' with
  | refl => exact h.mono (by omega)
  | step l m m' t _ h2 ih => exact .step _ _ _ _ (ih h) h2

theorem CharsetMap.mem_insert (t : Token) (id : Nat) (m : CharsetMap) (e : Token × Nat) :
    e ∈ CharsetMap.insert t id m ↔ e = (t, id) ∨ e ∈ m := by
  induction m with
  | nil => simp [CharsetMap.insert]
  | cons a m ih =>
    unfold CharsetMap.insert
    split
    · simp
    · simp only [List.mem_cons, ih]
      constructor
      · rintro (h | h | h) <;> simp [h]
      · rintro (h | h | h) <;> simp [h]

theorem CharsetMap.length_insert (t : Token) (id : Nat) (m : CharsetMap) :
    (CharsetMap.insert t id m).length = m.length + 1 := by
  induction m with
  | nil => rfl
  | cons a m ih =>
    unfold CharsetMap.insert
    split
    · rfl
    · simp [ih]

theorem csLookup_sub (tr : Traits) (m : CharsetMap) (t : Token) : ∀ e ∈ m, e ∈ csLookup tr m t := by
  intro e he
  unfold csLookup
  split
  · exact he
  · exact (CharsetMap.mem_insert _ _ _ _).2 (.inr he)

theorem Grows.sub {tr : Traits} {k : Nat} {m m' : CharsetMap} (h : Grows tr k m m') :
    ∀ e ∈ m, e ∈ m' := by
  induction h with
  | refl => exact fun _ h => h
  | step k m m' t _ _ ih => exact fun e he => csLookup_sub tr _ t e (ih e he)

/-- Invariant of the charset map: ids are given out in order, keys are distinct
and good. -/
structure CsInv (m : CharsetMap) : Prop where
  small : ∀ e ∈ m, e.2 < m.length
  ids : m.Pairwise fun a b => a.2 ≠ b.2
  keys : m.Pairwise fun a b => a.1 ≠ b.1
  good : ∀ e ∈ m, GoodTok e.1

theorem CharsetMap.pairwise_insert {R : Token × Nat → Token × Nat → Prop}
    (hs : ∀ a b, R a b → R b a) (t : Token) (id : Nat) (m : CharsetMap) (h : m.Pairwise R)
    (hn : ∀ e ∈ m, R (t, id) e) : (CharsetMap.insert t id m).Pairwise R := by
  induction m with
  | nil => simp [CharsetMap.insert]
  | cons a m ih =>
    unfold CharsetMap.insert
    split
    · exact List.pairwise_cons.2 ⟨hn, h⟩
    · have h' := List.pairwise_cons.1 h
      refine List.pairwise_cons.2 ⟨fun e he => ?_, ih h'.2 fun e he => hn e (List.mem_cons_of_mem _ he)⟩
      rcases (CharsetMap.mem_insert _ _ _ _).1 he with rfl | he
      · exact hs _ _ (hn a (by simp))
      · exact h'.1 e he

theorem Grows.inv {tr : Traits} {k : Nat} {m m' : CharsetMap} (h : Grows tr k m m') (hm : CsInv m)
    (hk : m.length + k ≤ tr.npos) : CsInv m' ∧ m'.length ≤ m.length + k := by
  induction h with
  | refl k m => exact ⟨hm, by omega⟩
  | step k m m' t h1 h2 ih =>
    obtain ⟨a, b⟩ := ih hm (by omega)
    unfold csLookup
    split
    · exact ⟨a, by omega⟩
    · rename_i hf
      have hid : tr.toId m'.length = m'.length := Nat.mod_eq_of_lt (by omega)
      rw [hid, CharsetMap.length_insert]
      refine ⟨⟨?_, ?_, ?_, ?_⟩, by omega⟩
      · intro e he
        rw [CharsetMap.length_insert]
        rcases (CharsetMap.mem_insert _ _ _ _).1 he with rfl | he
        · simp
        · have := a.small e he; omega
      · exact CharsetMap.pairwise_insert (fun _ _ h => Ne.symm h) _ _ _ a.ids fun e he => by
          have := a.small e he; simp; omega
      · refine CharsetMap.pairwise_insert (fun _ _ h => Ne.symm h) _ _ _ a.keys fun e he h => ?_
        rw [List.find?_eq_none] at hf
        exact hf e he (by simpa using h.symm)
      · intro e he
        rcases (CharsetMap.mem_insert _ _ _ _).1 he with rfl | he
        · exact h2
        · exact a.good e he

theorem csInv_nil : CsInv [] := ⟨by simp, by simp, by simp, by simp⟩

theorem pairwise_ne_inj {α β : Type} (f : α → β) {l : List α} (h : l.Pairwise fun a b => f a ≠ f b)
    {a b : α} (ha : a ∈ l) (hb : b ∈ l) (he : f a = f b) : a = b := by
  induction l with
  | nil => cases ha
  | cons x l ih =>
    have h' := List.pairwise_cons.1 h
    rcases List.mem_cons.1 ha with rfl | ha <;> rcases List.mem_cons.1 hb with rfl | hb
    · rfl
    · exact absurd he (h'.1 b hb)
    · exact absurd he.symm (h'.1 a ‹_›)
    · exact ih h'.2 ha hb

theorem CsInv.idsOk {tr : Traits} {m : CharsetMap} (h : CsInv m) (hl : m.length + 2 ≤ tr.npos)
    (hn : 2 < tr.npos) : IdsOk tr m :=
  ⟨fun _ ha _ hb he => pairwise_ne_inj Prod.snd h.ids ha hb he,
    fun a ha => by have := h.small a ha; omega, hn⟩

/-- The id a lookup returns belongs to the charset in the resulting map. -/
theorem PState.lookup_spec (tr : Traits) (p : PState) (t : Token) :
    (p.lookup tr t).1 = { p with charsets := csLookup tr p.charsets t } ∧
      (t, (p.lookup tr t).2) ∈ csLookup tr p.charsets t := by
  unfold PState.lookup csLookup
  cases h : p.charsets.find? (fun e => e.1 == t) with
  | some e =>
    have h1 := List.find?_some h
    have h2 := List.mem_of_find?_eq_some h
    simp only [beq_iff_eq] at h1
    refine ⟨rfl, ?_⟩
    rw [← h1]; exact h2
  | none => exact ⟨rfl, (CharsetMap.mem_insert _ _ _ _).2 (.inl rfl)⟩

/-- Image of a language under an encoding of the symbols. -/
def Img (enc : Sym → List Sym) (L : List Sym → Prop) (w : List Sym) : Prop :=
  ∃ u, L u ∧ w = u.flatMap enc

theorem img_cat (enc : Sym → List Sym) (L K : List Sym → Prop) :
    Img enc (Cat L K) = Cat (Img enc L) (Img enc K) := by
  funext w; apply propext
  constructor
  · rintro ⟨_, ⟨u, v, rfl, h1, h2⟩, rfl⟩
    exact ⟨_, _, List.flatMap_append, ⟨u, h1, rfl⟩, ⟨v, h2, rfl⟩⟩
  · rintro ⟨_, _, rfl, ⟨u, h1, rfl⟩, ⟨v, h2, rfl⟩⟩
    exact ⟨u ++ v, ⟨u, v, rfl, h1, h2⟩, List.flatMap_append.symm⟩

theorem img_pow (enc : Sym → List Sym) (L : List Sym → Prop) (k : Nat) :
    Img enc (Pow L k) = Pow (Img enc L) k := by
  induction k with
  | zero =>
    funext w; apply propext
    constructor
    · rintro ⟨_, rfl, rfl⟩; rfl
    · intro h; exact ⟨[], rfl, h⟩
  | succ k ih => rw [pow_succ, img_cat, ih, pow_succ]

theorem img_opt (enc : Sym → List Sym) (L : List Sym → Prop) :
    Img enc (Opt L) = Opt (Img enc L) := by
  funext w; apply propext
  constructor
  · rintro ⟨u, rfl | h, rfl⟩
    · exact .inl rfl
    · exact .inr ⟨u, h, rfl⟩
  · rintro (rfl | ⟨u, h, rfl⟩)
    · exact ⟨[], .inl rfl, rfl⟩
    · exact ⟨u, .inr h, rfl⟩

theorem img_exists_pow (enc : Sym → List Sym) (L : List Sym → Prop) (Q : Nat → Prop) :
    Img enc (fun w => ∃ k, Q k ∧ Pow L k w) = fun w => ∃ k, Q k ∧ Pow (Img enc L) k w := by
  funext w; apply propext
  constructor
  · rintro ⟨u, ⟨k, hk, h⟩, rfl⟩
    exact ⟨k, hk, by rw [← img_pow]; exact ⟨u, h, rfl⟩⟩
  · rintro ⟨k, hk, h⟩
    rw [← img_pow] at h
    obtain ⟨u, h, rfl⟩ := h
    exact ⟨u, ⟨k, hk, h⟩, rfl⟩

/-- Result of building a tree for a language: it is pushed on the stack, all its
nodes are new, at most `k` charsets are added, and its words are the encoded ones.
`b`, `e`: whether `^`, `$` may occur. -/
def Built (tr : Traits) (enc : Sym → List Sym) (L : List Sym → Prop) (k : Nat) (b e : Bool)
    (p : PState) (res : M PState) : Prop :=
  ∃ p' t, res = .ok p' ∧ p'.trees = t :: p.trees ∧ Fresh tr.nullToken p.heap p'.heap t ∧
    Grows tr k p.charsets p'.charsets ∧
    (e = false → p'.crId = p.crId ∧ p'.nlId = p.nlId) ∧
    TokAll (fun tk => tk = tr.nullToken ∨ (b = true ∧ tk = tr.bolToken) ∨
      (e = true ∧ tk = tr.eolToken) ∨ ∃ c ∈ p'.charsets, c.2 = tk) p'.heap t ∧
    ∀ m, IdsOk tr m → (∀ c ∈ p'.charsets, c ∈ m) →
      TL (tokReads tr m) p'.heap t = Img enc L

theorem Built.congr {tr : Traits} {enc : Sym → List Sym} {L K : List Sym → Prop} {n : Nat} {b e : Bool}
    {p : PState} {res : M PState} (H : Built tr enc L n b e p res) (h : L = K) :
    Built tr enc K n b e p res := h ▸ H

/-- Apply an operator to the tree just built. -/
theorem Built.op {tr : Traits} {enc : Sym → List Sym} {L : List Sym → Prop} {n : Nat} {b e : Bool}
    {p : PState} {res : M PState} (H : Built tr enc L n b e p res) (k : PState → M PState)
    (F : (List Sym → Prop) → List Sym → Prop)
    (hk : ∀ q t, q.trees = t :: p.trees → Fresh tr.nullToken p.heap q.heap t →
      OpDone tr.nullToken p.heap q t p.trees F (k q))
    (hF : Img enc (F L) = F (Img enc L)) : Built tr enc (F L) n b e p (res >>= k) := by
  obtain ⟨p', t, rfl, a2, a3, a4, a5, a6, a7⟩ := H
  obtain ⟨h', t', b1, b2, b3, b4, b5, b6⟩ := hk p' t a2 a3
  refine ⟨_, t', b1, rfl, b2, a4, a5, b6 _ (.inl rfl) a6, fun m hm hs => ?_⟩
  rw [b5, a7 m hm hs, hF]

/-- Two trees built one after the other. -/
theorem Built.two {tr : Traits} {enc : Sym → List Sym} {L K : List Sym → Prop} {n1 n2 : Nat}
    {b1 b2 e1 e2 : Bool} {p : PState} {res : M PState} (H : Built tr enc L n1 b1 e1 p res)
    (k : PState → M PState) (hk : ∀ q, Built tr enc K n2 b2 e2 q (k q)) :
    ∃ q l r, (res >>= k) = .ok q ∧ q.trees = r :: l :: p.trees ∧
      Fresh tr.nullToken p.heap q.heap l ∧ Fresh tr.nullToken p.heap q.heap r ∧
      (∀ n ∈ l.pos, n ∉ r.pos) ∧ Grows tr (n1 + n2) p.charsets q.charsets ∧
      ((e1 || e2) = false → q.crId = p.crId ∧ q.nlId = p.nlId) ∧
      (∀ t, t = l ∨ t = r → TokAll (fun tk => tk = tr.nullToken ∨
        ((b1 || b2) = true ∧ tk = tr.bolToken) ∨ ((e1 || e2) = true ∧ tk = tr.eolToken) ∨
        ∃ c ∈ q.charsets, c.2 = tk) q.heap t) ∧
      ∀ m, IdsOk tr m → (∀ c ∈ q.charsets, c ∈ m) →
        TL (tokReads tr m) q.heap l = Img enc L ∧ TL (tokReads tr m) q.heap r = Img enc K := by
  obtain ⟨p1, l, rfl, a2, a3, a4, a5, a6, a7⟩ := H
  obtain ⟨q, r, c1, c2, c3, c4, c5, c6, c7⟩ := hk p1
  obtain ⟨x1, he1⟩ := a3.ext
  obtain ⟨x2, he2⟩ := c3.ext
  have hl : Fresh tr.nullToken p.heap q.heap l := by rw [he2]; exact a3.append x2
  have htok : ∀ n ∈ l.pos, q.heap.tokOf n = p1.heap.tokOf n := fun n hn => by
    rw [he2, (Heap.obs_append_left p1.heap x2 n (a3.lt n hn)).1]
  refine ⟨q, l, r, c1, by rw [c2, a2], hl, c3.weaken he1, ?_, a4.trans c4, ?_, ?_, ?_⟩
  · intro n hn hm
    have := a3.lt n hn; have := c3.ge n hm; omega
  · intro h
    simp only [Bool.or_eq_false_iff] at h
    exact ⟨(c5 h.2).1.trans (a5 h.1).1, (c5 h.2).2.trans (a5 h.1).2⟩
  · rintro t (rfl | rfl)
    · intro n hn tk htk
      rw [htok n hn] at htk
      rcases a6 n hn tk htk with h1 | h1 | h1 | ⟨e, h1, h2⟩
      · exact .inl h1
      · exact .inr (.inl ⟨by simp [h1.1], h1.2⟩)
      · exact .inr (.inr (.inl ⟨by simp [h1.1], h1.2⟩))
      · exact .inr (.inr (.inr ⟨e, c4.sub e h1, h2⟩))
    · intro n hn tk htk
      rcases c6 n hn tk htk with h1 | h1 | h1 | h1
      · exact .inl h1
      · exact .inr (.inl ⟨by simp [h1.1], h1.2⟩)
      · exact .inr (.inr (.inl ⟨by simp [h1.1], h1.2⟩))
      · exact .inr (.inr (.inr h1))
  · intro m hm hs
    refine ⟨?_, c7 m hm hs⟩
    rw [← a7 m hm fun e he => hs e (c4.sub e he)]
    exact TL_congr l htok

theorem Built.seq {tr : Traits} {enc : Sym → List Sym} {L K : List Sym → Prop} {n1 n2 : Nat}
    {b1 b2 e1 e2 : Bool} {p : PState} {res : M PState} (H : Built tr enc L n1 b1 e1 p res)
    (k : PState → M PState) (hk : ∀ q, Built tr enc K n2 b2 e2 q (k q)) :
    Built tr enc (Cat L K) (n1 + n2) (b1 || b2) (e1 || e2) p ((res >>= k) >>= PState.sequence) := by
  obtain ⟨q, l, r, c1, c2, c3, c4, c5, c6, c7, c8, c9⟩ := H.two k hk
  obtain ⟨h', d1, d2, d3, d4⟩ := fresh_seq c3 c4 c5
  refine ⟨{ q with heap := h', trees := .seq l r :: p.trees }, .seq l r, ?_, rfl, d2, c6, c7, ?_, ?_⟩
  · rw [c1]
    simp only [PState.sequence, bind, Except.bind, c2, d1]
  · exact (TokAll.node (TokAll.congr (c8 l (.inl rfl)) fun n _ => d4 n)
      (TokAll.congr (c8 r (.inr rfl)) fun n _ => d4 n)).1
  · intro m hm hs
    have h1 := c9 m hm hs
    have e1 : TL (tokReads tr m) h' l = _ := TL_congr l fun n _ => d4 n
    have e2 : TL (tokReads tr m) h' r = _ := TL_congr r fun n _ => d4 n
    show Cat (TL (tokReads tr m) h' l) (TL (tokReads tr m) h' r) = _
    rw [e1, e2, h1.1, h1.2, img_cat]

theorem Built.alt {tr : Traits} {enc : Sym → List Sym} {L K : List Sym → Prop} {n1 n2 : Nat}
    {b1 b2 e1 e2 : Bool} {p : PState} {res : M PState} (H : Built tr enc L n1 b1 e1 p res)
    (k : PState → M PState) (hk : ∀ q, Built tr enc K n2 b2 e2 q (k q)) :
    Built tr enc (fun w => L w ∨ K w) (n1 + n2) (b1 || b2) (e1 || e2) p
      ((res >>= k) >>= PState.performOr) := by
  obtain ⟨q, l, r, c1, c2, c3, c4, c5, c6, c7, c8, c9⟩ := H.two k hk
  refine ⟨{ q with trees := .sel l r :: p.trees }, .sel l r, ?_, rfl, fresh_sel c3 c4 c5, c6, c7,
    (TokAll.node (c8 l (.inl rfl)) (c8 r (.inr rfl))).2, ?_⟩
  · rw [c1]
    simp only [PState.performOr, bind, Except.bind, c2]
  · intro m hm hs
    have h1 := c9 m hm hs
    funext w
    show (TL (tokReads tr m) q.heap l w ∨ TL (tokReads tr m) q.heap r w) = _
    rw [h1.1, h1.2]
    apply propext
    constructor
    · rintro (⟨u, h, rfl⟩ | ⟨u, h, rfl⟩)
      · exact ⟨u, .inl h, rfl⟩
      · exact ⟨u, .inr h, rfl⟩
    · rintro ⟨u, h | h, rfl⟩
      · exact .inl ⟨u, h, rfl⟩
      · exact .inr ⟨u, h, rfl⟩

/-- A leaf with a proper token. -/
theorem Built.leaf {tr : Traits} {enc : Sym → List Sym} {L : List Sym → Prop} {n : Nat} {b e : Bool}
    (p q : PState) (tk : Nat) (g : Greedy) (hh : q.heap = p.heap) (ht : q.trees = p.trees)
    (hc : Grows tr n p.charsets q.charsets)
    (hn : ∀ m, IdsOk tr m → (∀ c ∈ q.charsets, c ∈ m) → tk ≠ tr.nullToken)
    (hcr : e = false → q.crId = p.crId ∧ q.nlId = p.nlId)
    (htk : tk = tr.nullToken ∨ (b = true ∧ tk = tr.bolToken) ∨ (e = true ∧ tk = tr.eolToken) ∨
      ∃ c ∈ q.charsets, c.2 = tk)
    (hL : ∀ m, IdsOk tr m → (∀ c ∈ q.charsets, c ∈ m) →
      ∀ w, (∃ s, w = [s] ∧ tokReads tr m tk s) ↔ Img enc L w) :
    Built tr enc L n b e p (.ok (q.pushLeaf tr tk g)) := by
  refine ⟨q.pushLeaf tr tk g, .leaf q.heap.length (tk == tr.nullToken), rfl, ?_, ?_, hc, hcr, ?_, ?_⟩
  · simp [PState.pushLeaf, Heap.newLeaf, ht]
  · have := fresh_leaf (nt := tr.nullToken) (h := p.heap) (h0 := p.heap) (e := []) (by simp) tk g
    simpa [PState.pushLeaf, Heap.newLeaf, hh] using this
  · intro n hm t htok
    simp [Tree.pos] at hm
    subst hm
    simp [PState.pushLeaf, Heap.newLeaf, Heap.tokOf] at htok
    rw [← htok]; exact htk
  · intro m hm hs
    have hne : tk ≠ tr.nullToken := hn m hm hs
    funext w
    apply propext
    rw [← hL m hm hs w]
    simp only [TL, Tree.lang, beq_eq_false_iff_ne.2 hne, Bool.false_eq_true, if_false, Reads]
    refine exists_congr fun s => and_congr_right fun _ => ?_
    constructor
    · rintro ⟨t, h1, h2⟩
      simp [PState.pushLeaf, Heap.newLeaf, Heap.tokOf] at h1
      rw [h1]; exact h2
    · intro h
      exact ⟨tk, by simp [PState.pushLeaf, Heap.newLeaf, Heap.tokOf], h⟩

/-- `tokReads` of a charset id is membership in that charset. -/
theorem tokReads_iff {tr : Traits} {m : CharsetMap} (hm : IdsOk tr m) {t : Token} {id : Nat}
    (h : (t, id) ∈ m) (s : Sym) : tokReads tr m id s ↔ ∃ c, s = .ch c ∧ Mem c t := by
  have hs := hm.small _ h
  have hn := hm.npos
  cases s with
  | ch c =>
    simp only [tokReads]
    constructor
    · rintro ⟨e, he, h1, h2⟩
      rw [hm.inj e he _ h h1] at h2
      exact ⟨c, rfl, h2⟩
    · rintro ⟨c', hc, h2⟩
      cases hc
      exact ⟨_, h, rfl, h2⟩
  | bol => simp only [tokReads, Traits.bolToken, reduceCtorEq, false_and, exists_false, iff_false]; omega
  | eol => simp only [tokReads, Traits.eolToken, reduceCtorEq, false_and, exists_false, iff_false]; omega

/-- Words of one character from `t`. -/
def OneOf (t : Token) (w : List Sym) : Prop := ∃ c, Mem c t ∧ w = [.ch c]

theorem img_single (L : List Sym → Prop) : Img (fun s => [s]) L = L := by
  have : ∀ u : List Sym, u.flatMap (fun s => [s]) = u := fun u => by
    induction u with
    | nil => rfl
    | cons a u ih => rw [List.flatMap_cons, ih]; rfl
  funext w; apply propext
  constructor
  · rintro ⟨u, h, rfl⟩; rw [this]; exact h
  · intro h; exact ⟨w, h, (this w).symm⟩

/-- A charset leaf (no encoding). -/
theorem Built.range (tr : Traits) (p : PState) (t : Token) (ht : GoodTok t) :
    Built tr (fun s => [s]) (OneOf t) 1 false false p (.ok (p.pushRange tr t)) := by
  obtain ⟨h1, h2⟩ := PState.lookup_spec tr p t
  have h3 : p.pushRange tr t = ((p.lookup tr t).1).pushLeaf tr (p.lookup tr t).2 .yes := rfl
  rw [h3, h1]
  refine Built.leaf p _ _ _ rfl rfl (.step 0 _ _ t (.refl _ _) ht) ?_ (fun _ => ⟨rfl, rfl⟩)
    (.inr (.inr (.inr ⟨_, h2, rfl⟩))) ?_
  · intro m hm hs
    have := hm.small _ (hs _ h2)
    simp only [Traits.nullToken]; simp only at this; omega
  · intro m hm hs w
    rw [img_single]
    constructor
    · rintro ⟨s, rfl, h⟩
      obtain ⟨c, rfl, hc⟩ := (tokReads_iff hm (hs _ h2) s).1 h
      exact ⟨c, hc, rfl⟩
    · rintro ⟨c, hc, rfl⟩
      exact ⟨_, rfl, (tokReads_iff hm (hs _ h2) _).2 ⟨c, rfl, hc⟩⟩

theorem Built.img {tr : Traits} {enc : Sym → List Sym} {L K : List Sym → Prop} {n : Nat} {b e : Bool}
    {p : PState} {res : M PState} (H : Built tr (fun s => [s]) L n b e p res)
    (h : L = Img enc K) : Built tr enc K n b e p res := by
  obtain ⟨p', t, a1, a2, a3, a4, a5, a6, a7⟩ := H
  refine ⟨p', t, a1, a2, a3, a4, a5, a6, fun m hm hs => ?_⟩
  rw [a7 m hm hs, img_single, h]

/-- `^`. -/
theorem Built.bol (tr : Traits) (p : PState) :
    Built tr (fun s => [s]) (fun w => w = [.bol]) 0 true false p
      (.ok (p.pushLeaf tr tr.bolToken .yes)) := by
  refine Built.leaf p p _ _ rfl rfl (.refl _ _) ?_ (fun _ => ⟨rfl, rfl⟩) (.inr (.inl ⟨rfl, rfl⟩)) ?_
  · intro m hm _
    have := hm.npos
    simp only [Traits.nullToken, Traits.bolToken]; omega
  · intro m hm _ w
    have hn := hm.npos
    rw [img_single]
    constructor
    · rintro ⟨s, rfl, h⟩
      cases s with
      | ch c =>
        obtain ⟨e, he, h1, _⟩ := h
        have := hm.small e he
        simp only [Traits.bolToken] at h1; omega
      | bol => rfl
      | eol => simp only [tokReads, Traits.bolToken, Traits.eolToken] at h; omega
    · rintro rfl
      exact ⟨_, rfl, rfl⟩

/-- `$`: the charsets of CR and LF are looked up, then a leaf is pushed. -/
theorem Built.eol (tr : Traits) (p : PState) :
    Built tr (fun s => [s]) (fun w => w = [.eol]) 2 false true p (PState.act tr .eol p) := by
  obtain ⟨h1, h2⟩ := PState.lookup_spec tr p (Token.ofChar 13)
  obtain ⟨h3, h4⟩ := PState.lookup_spec tr (p.lookup tr (Token.ofChar 13)).1 (Token.ofChar 10)
  have e : ∃ q : PState, PState.act tr .eol p = .ok (q.pushLeaf tr tr.eolToken .yes) ∧
      q.heap = p.heap ∧ q.trees = p.trees ∧
      q.charsets = csLookup tr (csLookup tr p.charsets (Token.ofChar 13)) (Token.ofChar 10) := by
    generalize hL : p.lookup tr (Token.ofChar 13) = L at h1 h3
    obtain ⟨p1, cr⟩ := L
    simp only at h1 h3
    generalize hK : p1.lookup tr (Token.ofChar 10) = K at h3
    obtain ⟨p2, nl⟩ := K
    simp only at h3
    simp only [PState.act, hL, hK]
    refine ⟨_, rfl, ?_, ?_, ?_⟩
    all_goals
      split <;> split <;> simp only [h3, h1]
  obtain ⟨q, e1, e2, e3, e4⟩ := e
  rw [e1]
  refine Built.leaf p q _ _ e2 e3 ?_ ?_ (by simp) (.inr (.inr (.inl ⟨rfl, rfl⟩))) ?_
  · rw [e4]
    exact .step _ _ _ _ (.step _ _ _ _ (.refl _ _) (by unfold GoodTok; decide)) (by unfold GoodTok; decide)
  · intro m hm _
    have := hm.npos
    simp only [Traits.nullToken, Traits.eolToken]; omega
  · intro m hm _ w
    have hn := hm.npos
    rw [img_single]
    constructor
    · rintro ⟨s, rfl, h⟩
      cases s with
      | ch c =>
        obtain ⟨e, he, h1, _⟩ := h
        have := hm.small e he
        simp only [Traits.eolToken] at h1; omega
      | bol => simp only [tokReads, Traits.bolToken, Traits.eolToken] at h; omega
      | eol => rfl
    · rintro rfl
      exact ⟨_, rfl, rfl⟩

/-- Number of charset lookups made for an expression. -/
def Spec.Re.lookups (cost : Token → Nat) : Re → Nat
  | .chars t => cost t
  | .bol => 0
  | .eol => 2
  | .seq l r => l.lookups cost + r.lookups cost
  | .alt l r => l.lookups cost + r.lookups cost
  | .opt r _ => r.lookups cost
  | .star r _ => r.lookups cost
  | .plus r _ => r.lookups cost
  | .rep r _ _ _ => r.lookups cost

/-- All repetition counts are ones the tokeniser lets through. -/
def Spec.Re.CountsOk : Re → Prop
  | .seq l r => l.CountsOk ∧ r.CountsOk
  | .alt l r => l.CountsOk ∧ r.CountsOk
  | .opt r _ => r.CountsOk
  | .star r _ => r.CountsOk
  | .plus r _ => r.CountsOk
  | .rep r lo hi _ => PState.BoundsOk lo hi ∧ r.CountsOk
  | _ => True

theorem derives_counts {l : Level} {ts : List Tok} {r : Re} (h : Derives l ts r) : r.CountsOk := by
  induction h with
  | charset | bol | eol => trivial
  | paren _ _ _ _ _ _ _ ih => exact ih
  | item _ _ _ ih => exact ih
  | postfix_ ts r d q _ hp ih =>
    cases hp <;> first | exact ih | exact ⟨PState.count_bounds ‹_›, ih⟩
  | seq1 _ _ _ ih => exact ih
  | seq _ _ _ _ _ _ h1 h2 => exact ⟨h1, h2⟩
  | alt1 _ _ _ ih => exact ih
  | alt _ _ _ _ _ _ _ _ h1 h2 => exact ⟨h1, h2⟩

theorem opGreedy_ne (lz : Bool) : PState.opGreedy lz ≠ .yes := by cases lz <;> decide

/-- The expression with every charset replaced. -/
def Spec.Re.mapChars (g : Token → Token) : Re → Re
  | .chars t => .chars (g t)
  | .bol => .bol
  | .eol => .eol
  | .seq l r => .seq (l.mapChars g) (r.mapChars g)
  | .alt l r => .alt (l.mapChars g) (r.mapChars g)
  | .opt r z => .opt (r.mapChars g) z
  | .star r z => .star (r.mapChars g) z
  | .plus r z => .plus (r.mapChars g) z
  | .rep r lo hi z => .rep (r.mapChars g) lo hi z

/-- The tree built for `r` has the words of `r` with its charsets replaced by `g`, given
that this holds for the charsets of `r`. -/
theorem act_built (tr : Traits) (enc : Sym → List Sym) (hb : enc .bol = [.bol])
    (he : enc .eol = [.eol]) (cost : Token → Nat) (P : Token → Prop) (g : Token → Token)
    (hch : ∀ t, P t → ∀ p, Built tr enc (OneOf (g t)) (cost t) false false p (PState.act tr (.chars t) p))
    (r : Re) (hr : r.AllChars P) (hc : r.CountsOk) (p : PState) :
    Built tr enc (r.mapChars g).Matches (r.lookups cost) (!r.noBol) (!r.noEol) p (PState.act tr r p) := by
  induction r generalizing p with
  | chars t => exact hch t hr p
  | bol => exact (Built.bol tr p).img (by
      funext w; apply propext
      constructor
      · rintro rfl; exact ⟨[.bol], rfl, by simp [hb]⟩
      · rintro ⟨_, rfl, rfl⟩; simp [hb])
  | eol => exact (Built.eol tr p).img (by
      funext w; apply propext
      constructor
      · rintro rfl; exact ⟨[.eol], rfl, by simp [he]⟩
      · rintro ⟨_, rfl, rfl⟩; simp [he])
  | seq l r ihl ihr =>
    have := (ihl hr.1 hc.1 p).seq (PState.act tr r) (ihr hr.2 hc.2)
    simp only [Re.noBol, Re.noEol, Bool.not_and]
    refine Eq.mp ?_ this
    congr 1
    simp only [PState.act, bind_assoc]
  | alt l r ihl ihr =>
    have := (ihl hr.1 hc.1 p).alt (PState.act tr r) (ihr hr.2 hc.2)
    simp only [Re.noBol, Re.noEol, Bool.not_and]
    refine Eq.mp ?_ this
    congr 1
    simp only [PState.act, bind_assoc]
  | opt r lz ih =>
    exact (ih hr hc p).op _ Opt (fun q t h1 h2 => PState.optional_spec tr _ q t _ h1 h2 _ (opGreedy_ne lz))
      (img_opt _ _)
  | star r lz ih =>
    refine ((ih hr hc p).op _ Star
      (fun q t h1 h2 => PState.zeroOrMore_spec tr _ q t _ h1 h2 _ (opGreedy_ne lz)) ?_).congr ?_
    · have := img_exists_pow enc (r.mapChars g).Matches fun _ => True
      funext w
      have h := congrFun this w
      simp only [true_and] at h
      have e1 : Star (r.mapChars g).Matches = fun w => ∃ k, Pow (r.mapChars g).Matches k w :=
        funext fun w => propext (star_pow _ w)
      rw [e1, h]
      exact (propext (star_pow _ w)).symm
    · funext w; exact propext (star_pow _ w)
  | plus r lz ih =>
    have e1 : ∀ L : List Sym → Prop, Cat L (Star L) = fun w => ∃ k, 1 ≤ k ∧ Pow L k w := by
      intro L; funext w; apply propext
      constructor
      · rintro ⟨u, v, rfl, h1, h2⟩
        obtain ⟨k, hk⟩ := (star_pow L v).1 h2
        exact ⟨k + 1, by omega, u, v, rfl, h1, hk⟩
      · rintro ⟨k, hk, h⟩
        cases k with
        | zero => omega
        | succ k =>
          obtain ⟨u, v, rfl, h1, h2⟩ := h
          exact ⟨u, v, rfl, h1, (star_pow L v).2 ⟨k, h2⟩⟩
    refine ((ih hr hc p).op _ (fun L => Cat L (Star L))
      (fun q t h1 h2 => PState.oneOrMore_spec tr _ q t _ h1 h2 _ (opGreedy_ne lz)) ?_).congr ?_
    · rw [e1, e1, img_exists_pow]
    · exact e1 _
  | rep r lo hi lz ih =>
    refine ((ih hr hc.2 p).op _ (PState.RepLang lo hi)
      (fun q t h1 h2 => PState.repeatCounts_spec tr _ q t _ h1 h2 _ (opGreedy_ne lz) lo hi hc.1) ?_).congr ?_
    · have e1 : ∀ L : List Sym → Prop, PState.RepLang lo hi L =
          fun w => ∃ k, (lo ≤ k ∧ ∀ h, hi = some h → k ≤ h) ∧ Pow L k w := by
        intro L; funext w; apply propext
        simp only [PState.RepLang, and_assoc]
      rw [e1, e1, img_exists_pow]
    · rfl

end Lexertl
