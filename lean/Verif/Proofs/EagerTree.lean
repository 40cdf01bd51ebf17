import Verif.Proofs.EncTree
import Verif.Spec.Eager

/-
The syntax trees built for eager rules: every position that can follow another one is
`hard`.
-/
namespace Lexertl
open Spec
namespace Eager

def Hd (h : Heap) (n : Nat) : Prop := h.greedyOf n = some .hard

/-- Every position that can follow another one is `hard`. -/
def FH (h : Heap) : Tree → Prop
  | .leaf _ _ => True
  | .fin _ => True
  | .seq l r => FH h l ∧ FH h r ∧ ∀ q ∈ r.firstpos, Hd h q
  | .sel l r => FH h l ∧ FH h r
  | .iter t _ => FH h t ∧ ∀ q ∈ t.firstpos, Hd h q

theorem FH.mono {h h' : Heap} (hm : ∀ n, Hd h n → Hd h' n) : ∀ {t : Tree}, FH h t → FH h' t := by
  intro t
  induction t with
  | leaf => exact fun _ => trivial
  | fin => exact fun _ => trivial
  | seq l r ihl ihr => exact fun H => ⟨ihl H.1, ihr H.2.1, fun q hq => hm q (H.2.2 q hq)⟩
  | sel l r ihl ihr => exact fun H => ⟨ihl H.1, ihr H.2⟩
  | iter t g ih => exact fun H => ⟨ih H.1, fun q hq => hm q (H.2 q hq)⟩

theorem FH.follow {h : Heap} : ∀ {t : Tree}, FH h t → ∀ n q, q ∈ t.follow n → Hd h q := by
  intro t
  induction t with
  | leaf => intro _ n q hq; simp [Tree.follow] at hq
  | fin => intro _ n q hq; simp [Tree.follow] at hq
  | seq l r ihl ihr =>
    intro H n q hq
    simp only [Tree.follow, List.mem_append] at hq
    rcases hq with (hq | hq) | hq
    · exact ihl H.1 n q hq
    · exact ihr H.2.1 n q hq
    · split at hq
      · exact H.2.2 q hq
      · cases hq
  | sel l r ihl ihr =>
    intro H n q hq
    simp only [Tree.follow, List.mem_append] at hq
    rcases hq with hq | hq
    · exact ihl H.1 n q hq
    · exact ihr H.2 n q hq
  | iter t g ih =>
    intro H n q hq
    simp only [Tree.follow, List.mem_append] at hq
    rcases hq with hq | hq
    · exact ih H.1 n q hq
    · split at hq
      · exact H.2 q hq
      · cases hq

theorem FH.same {h h' : Heap} : ∀ {t t' : Tree}, FH h t → Tree.SameShape h h' t t' → FH h' t' := by
  intro t
  induction t with
  | leaf n a => intro t' _ H; cases t' <;> first | exact H.elim | trivial
  | fin n => intro t' _ H; cases t' <;> exact H.elim
  | seq l r ihl ihr =>
    intro t' F H
    cases t' <;> try exact H.elim
    exact ⟨ihl F.1 H.1, ihr F.2.1 H.2, H.2.first (fun o => o = some .hard) F.2.2⟩
  | sel l r ihl ihr =>
    intro t' F H
    cases t' <;> try exact H.elim
    exact ⟨ihl F.1 H.1, ihr F.2 H.2⟩
  | iter t g ih =>
    intro t' F H
    cases t' <;> try exact H.elim
    exact ⟨ih F.1 H.2, H.2.first (fun o => o = some .hard) F.2⟩

theorem hd_append (h e : Heap) : ∀ n, Hd h n → Hd (h ++ e) n := by
  intro n hn
  have hlt : n < h.length := by
    unfold Hd Heap.greedyOf at hn
    cases hc : h[n]? with
    | none => rw [hc] at hn; cases hn
    | some c => exact (List.getElem?_eq_some_iff.1 hc).1
  unfold Hd
  rw [(Heap.obs_append_left h e n hlt).2.1]
  exact hn

theorem hd_ext {h h' : Heap} (he : ∃ e, h' = h ++ e) : ∀ n, Hd h n → Hd h' n := by
  obtain ⟨e, rfl⟩ := he
  exact hd_append h e

theorem hd_upd {h h' : Heap} {S : List Nat} {g : Greedy}
    (e : ∀ n, h'.greedyOf n = if n ∈ S then (h.greedyOf n).map (Heap.upd · g) else h.greedyOf n) :
    ∀ n, Hd h n → Hd h' n := by
  intro n hn
  unfold Hd at *
  rw [e, hn]
  split <;> rfl

/-- What the action for `r` leaves behind. -/
def Res (tr : Traits) (fst : Bool) (p p' : PState) : Prop :=
  ∃ t, p'.trees = t :: p.trees ∧ Fresh tr.nullToken p.heap p'.heap t ∧ FH p'.heap t ∧
    (fst = true → ∀ q ∈ t.firstpos, Hd p'.heap q)

theorem greedy_some {nt : Nat} {h0 h : Heap} {t : Tree} (ht : Fresh nt h0 h t) {n : Nat} (hn : n ∈ t.pos) :
    ∃ g, h.greedyOf n = some g := by
  obtain ⟨k, hk⟩ := ht.lay.wf.tok ht.noFin n hn
  unfold Heap.tokOf at hk; unfold Heap.greedyOf
  split at hk
  · rename_i x y z hh; exact ⟨y, rfl⟩
  · cases hk

theorem opGreedy_ne (lz : Bool) : PState.opGreedy lz ≠ .yes := by cases lz <;> decide

/-- The greediness of an operator makes the first positions `hard`, or they are already. -/
theorem first_hd {nt : Nat} {h0 h h' : Heap} {t : Tree} (ht : Fresh nt h0 h t) {lz : Bool}
    (e : ∀ n, h'.greedyOf n = if n ∈ t.firstpos then (h.greedyOf n).map (Heap.upd · (PState.opGreedy lz)) else h.greedyOf n)
    (hf : lz = false ∨ ∀ q ∈ t.firstpos, Hd h q) : ∀ q ∈ t.firstpos, Hd h' q := by
  intro q hq
  rcases hf with rfl | hf
  · obtain ⟨g, hg⟩ := greedy_some ht (Tree.firstpos_sub t q hq)
    unfold Hd
    rw [e, if_pos hq, hg]
    cases g <;> rfl
  · exact hd_upd e q (hf q hq)

theorem or_of {lz b : Bool} {P : Prop} (h : (!lz || b) = true) (hp : b = true → P) : lz = false ∨ P := by
  cases lz with
  | false => exact .inl rfl
  | true => exact .inr (hp (by simpa using h))

theorem act_eager (tr : Traits) (hc : tr.compressed = false) : ∀ (r : Re), r.eager = true →
    ∀ (p p' : PState), PState.act tr r p = .ok p' → Res tr r.eagerFirst p p' := by
  intro r
  induction r with
  | chars t =>
    intro _ p p' e
    have h3 : p.pushRange tr t = ((p.lookup tr t).1).pushLeaf tr (p.lookup tr t).2 .yes := rfl
    obtain ⟨h1, _⟩ := PState.lookup_spec tr p t
    simp only [PState.act, hc, Bool.false_eq_true, if_false] at e
    rw [h3, h1] at e
    cases e
    refine ⟨_, rfl, fresh_leaf (h := p.heap) (h0 := p.heap) (e := []) (by simp) _ _, trivial, ?_⟩
    intro h; cases h
  | alt l r ihl ihr =>
    intro hs p p' e
    simp only [Re.eager, Bool.and_eq_true] at hs
    simp only [PState.act, bind, Except.bind] at e
    cases e1 : PState.act tr l p with
    | error x => rw [e1] at e; cases e
    | ok p1 =>
      rw [e1] at e
      simp only at e
      cases e2 : PState.act tr r p1 with
      | error x => rw [e2] at e; cases e
      | ok p2 =>
        rw [e2] at e
        simp only [PState.performOr] at e
        obtain ⟨a, a1, a2, a3, a4⟩ := ihl hs.1 p p1 e1
        obtain ⟨b, b1, b2, b3, b4⟩ := ihr hs.2 p1 p2 e2
        rw [b1, a1] at e
        simp only [Except.ok.injEq] at e
        subst e
        have hx := hd_ext b2.ext
        obtain ⟨x, hx'⟩ := b2.ext
        obtain ⟨y, hy⟩ := a2.ext
        refine ⟨.sel a b, rfl, fresh_sel (by show Fresh _ _ p2.heap a; rw [hx']; exact a2.append x) (b2.weaken hy) ?_,
          ⟨a3.mono hx, b3⟩, ?_⟩
        · intro n hn hm
          have := a2.lt n hn
          have := b2.ge n hm
          omega
        · intro hf q hq
          simp only [Re.eagerFirst, Bool.and_eq_true] at hf
          simp only [Tree.firstpos, List.mem_append] at hq
          rcases hq with hq | hq
          · exact hx q (a4 hf.1 q hq)
          · exact b4 hf.2 q hq
  | seq l r ihl ihr =>
    intro hs p p' e
    simp only [Re.eager, Bool.and_eq_true] at hs
    simp only [PState.act, bind, Except.bind] at e
    cases e1 : PState.act tr l p with
    | error x => rw [e1] at e; cases e
    | ok p1 =>
      rw [e1] at e
      simp only at e
      cases e2 : PState.act tr r p1 with
      | error x => rw [e2] at e; cases e
      | ok p2 =>
        rw [e2] at e
        simp only [PState.sequence, bind, Except.bind] at e
        obtain ⟨a, a1, a2, a3, a4⟩ := ihl hs.1.1 p p1 e1
        obtain ⟨b, b1, b2, b3, b4⟩ := ihr hs.1.2 p1 p2 e2
        rw [b1, a1] at e
        have hx := hd_ext b2.ext
        obtain ⟨x, hx'⟩ := b2.ext
        obtain ⟨y, hy⟩ := a2.ext
        have a2' : Fresh tr.nullToken p.heap p2.heap a := by rw [hx']; exact a2.append x
        obtain ⟨h', c1, c2, c3, c4⟩ := fresh_seq a2' (b2.weaken hy) (fun n hn hm => by
          have := a2.lt n hn
          have := b2.ge n hm
          omega)
        simp only [c1, Except.ok.injEq] at e
        subst e
        have hy' : ∀ n, Hd p2.heap n → Hd h' n := fun n hn => by
          unfold Hd; rw [((Enc.newSeq_keeps c1).1.1 n).2]; exact hn
        refine ⟨.seq a b, rfl, c2, ⟨(a3.mono hx).mono hy', b3.mono hy', fun q hq => hy' q (b4 hs.2 q hq)⟩, ?_⟩
        intro hf q hq
        simp only [Re.eagerFirst, Bool.and_eq_true] at hf
        simp only [Tree.firstpos, List.mem_append] at hq
        rcases hq with hq | hq
        · exact hy' q (hx q (a4 hf.1 q hq))
        · split at hq
          · exact hy' q (b4 hf.2 q hq)
          · cases hq
  | opt r lz ih =>
    intro hs p p' e
    simp only [PState.act, bind, Except.bind] at e
    cases e1 : PState.act tr r p with
    | error x => rw [e1] at e; cases e
    | ok p1 =>
      rw [e1] at e
      obtain ⟨a, a1, a2, a3, a4⟩ := ih hs p p1 e1
      simp only [PState.optional, bind, Except.bind] at e
      rw [a1] at e
      obtain ⟨h', c1, c2, c3, c4⟩ := Heap.setGreedyAll_spec a.firstpos (PState.opGreedy lz) p1.heap
        (fun n hn => a2.lay.wf.tok a2.noFin n (Tree.firstpos_sub a n hn))
      obtain ⟨h'', d1, d2, d3, d4⟩ := fresh_greedy a2 (PState.opGreedy lz) (opGreedy_ne lz)
      rw [c1] at d1; cases d1
      simp only [c1, Except.ok.injEq] at e
      subst e
      obtain ⟨y, hy⟩ := d2.ext
      have hl := fresh_leaf (nt := tr.nullToken) hy tr.nullToken (PState.opGreedy lz)
      have hm := hd_upd c4
      have hx : ∀ n, Hd h' n → Hd (h'.newLeaf tr.nullToken tr.nullToken (PState.opGreedy lz)).1 n :=
        hd_append h' _
      refine ⟨.sel a _, rfl, fresh_sel (d2.append _) hl ?_, ⟨(a3.mono hm).mono hx, trivial⟩, ?_⟩
      · intro n hn hm
        simp [Heap.newLeaf, Tree.pos] at hm
        have := d2.lt n hn
        omega
      · intro hf q hq
        simp only [Re.eagerFirst] at hf
        simp only [Tree.firstpos, Heap.newLeaf, List.mem_append, beq_self_eq_true, if_true, List.not_mem_nil, or_false] at hq
        exact hx q (first_hd a2 c4 (or_of hf a4) q hq)
  | star r lz ih =>
    intro hs p p' e
    simp only [Re.eager, Bool.and_eq_true] at hs
    simp only [PState.act, bind, Except.bind] at e
    cases e1 : PState.act tr r p with
    | error x => rw [e1] at e; cases e
    | ok p1 =>
      rw [e1] at e
      obtain ⟨a, a1, a2, a3, a4⟩ := ih hs.1 p p1 e1
      simp only [PState.zeroOrMore, bind, Except.bind] at e
      rw [a1] at e
      obtain ⟨h', c1, _, _, _, _, c4⟩ := Heap.newIter_lay tr.nullToken p1.heap a (PState.opGreedy lz) a2.lay a2.noFin
      obtain ⟨h'', d1, d2, d3, d4⟩ := fresh_iter a2 (PState.opGreedy lz) (opGreedy_ne lz)
      rw [c1] at d1; cases d1
      simp only [c1, Except.ok.injEq] at e
      subst e
      have hf := first_hd a2 c4 (or_of hs.2 a4)
      exact ⟨.iter a _, rfl, d2, ⟨a3.mono (hd_upd c4), hf⟩, fun _ => hf⟩
  | plus r lz ih =>
    intro hs p p' e
    simp only [Re.eager, Bool.and_eq_true] at hs
    simp only [PState.act, bind, Except.bind] at e
    cases e1 : PState.act tr r p with
    | error x => rw [e1] at e; cases e
    | ok p1 =>
      rw [e1] at e
      obtain ⟨a, a1, a2, a3, a4⟩ := ih hs.1 p p1 e1
      simp only [PState.oneOrMore, bind, Except.bind] at e
      rw [a1] at e
      obtain ⟨e1, b, b1, b2, b3⟩ := fresh_copy a2
      obtain ⟨h2, c1, _, _, _, _, c4⟩ := Heap.newIter_lay tr.nullToken (p1.heap ++ e1) b (PState.opGreedy lz) b2.lay b2.noFin
      obtain ⟨h'', d1, d2, d3, d4⟩ := fresh_iter b2 (PState.opGreedy lz) (opGreedy_ne lz)
      rw [c1] at d1; cases d1
      obtain ⟨e0, he0⟩ := a2.ext
      have hge : ∀ n ∈ b.pos, n ∉ a.pos := fun n hn hm => by
        have := b2.ge n hn; have := a2.lt n hm; omega
      have ht2 : Fresh tr.nullToken p.heap h2 a := (a2.append e1).frame d3 (fun n hn hm => hge n hm hn)
        (fun n hn => by have := b2.ge n hn; rw [he0] at this; simp at this; omega)
      have hi2 : Fresh tr.nullToken p.heap h2 (.iter b (PState.opGreedy lz)) := d2.weaken he0
      obtain ⟨h3, f1, f2, f3, f4⟩ := fresh_seq ht2 hi2 (fun n hn hm => hge n hm hn)
      simp only [b1, c1, f1, Except.ok.injEq] at e
      subst e
      have m1 := hd_append p1.heap e1
      have m2 := hd_upd c4
      have m3 : ∀ n, Hd h2 n → Hd h3 n := fun n hn => by
        unfold Hd; rw [((Enc.newSeq_keeps f1).1.1 n).2]; exact hn
      have hb : ∀ q ∈ b.firstpos, Hd h2 q := first_hd b2 c4 (or_of hs.2 fun h =>
        b3.first (fun o => o = some .hard) (a4 h))
      have hb' : ∀ q ∈ b.firstpos, Hd h3 q := fun q hq => m3 q (hb q hq)
      refine ⟨.seq a (.iter b _), rfl, f2, ⟨((a3.mono m1).mono m2).mono m3,
        ⟨((a3.same b3).mono m2).mono m3, hb'⟩, hb'⟩, ?_⟩
      intro hf q hq
      simp only [Tree.firstpos, List.mem_append] at hq
      rcases hq with hq | hq
      · exact m3 q (m2 q (m1 q (a4 hf q hq)))
      · split at hq
        · exact hb' q hq
        · cases hq
  | bol => intro h; cases h
  | eol => intro h; cases h
  | rep => intro h; cases h

/-- Tree of a rule: whatever follows a position is `hard` or the end. -/
def EagerTree (h : Heap) (t : Tree × Nat) : Prop := ∀ n q, q ∈ t.1.follow n → Hd h q ∨ q = t.2

theorem EagerTree.ext {h h' : Heap} {t : Tree × Nat} (H : EagerTree h t) (he : ∃ x, h' = h ++ x) : EagerTree h' t :=
  fun n q hq => (H n q hq).imp (hd_ext he q) id

/-- The tree made for an eager rule. -/
theorem parse_eager {tr : Traits} (hc : tr.compressed = false) {p p' : PState} {regex : List Tok} {r : Re}
    {info : RuleInfo} {root : Tree} {f : Nat} (hd : Denotes regex (some r)) (hp : p.trees = [])
    (hr : r.eager = true) (he : PState.parse tr p regex info false = .ok (p', root)) (hlast : root.lastpos = [f]) :
    EagerTree p'.heap (root, f) := by
  obtain ⟨p1, ha⟩ := Enc.parse_act_ok hd he
  obtain ⟨g, hw⟩ := parse_act tr p p1 regex r info false hd ha
  rw [he] at hw
  simp only [wrapUp, bind, Except.bind, Bool.false_eq_true, if_false] at hw
  cases hf : p1.finish info g with
  | error x => rw [hf] at hw; cases hw
  | ok y =>
    rw [hf] at hw
    have hw : (p', root) = y := by injection hw
    subst hw
    obtain ⟨t, t1, t2, t3, _⟩ := act_eager tr hc r hr p p1 ha
    rw [hp] at t1
    unfold PState.finish at hf
    rw [t1] at hf
    simp only [bind, Except.bind] at hf
    cases hs : Heap.newSeq (p1.heap ++ [⟨.fin info.id info.userId info.uniqueId info.nextDfa info.pushDfa
        info.popDfa g, []⟩]) t (.fin p1.heap.length) with
    | error x => rw [hs] at hf; cases hf
    | ok z =>
      obtain ⟨h', root'⟩ := z
      obtain ⟨⟨k1, k2⟩, rfl⟩ := Enc.newSeq_keeps hs
      rw [hs] at hf
      simp only [Except.ok.injEq, Prod.mk.injEq] at hf
      obtain ⟨hf1, hf2⟩ := hf
      subst hf1; subst hf2
      simp only [Tree.lastpos, Tree.nullable, Bool.false_eq_true, if_false, List.nil_append, List.cons.injEq, and_true] at hlast
      subst hlast
      intro n q hq
      simp only [Tree.follow, List.mem_append, List.not_mem_nil, or_false] at hq
      rcases hq with hq | hq
      · left
        have := hd_append p1.heap [⟨.fin info.id info.userId info.uniqueId info.nextDfa info.pushDfa
          info.popDfa g, []⟩] q (t3.follow n q hq)
        unfold Hd
        rw [(k1 q).2]; exact this
      · split at hq
        · right; simpa [Tree.firstpos] using hq
        · cases hq

end Eager
end Lexertl
