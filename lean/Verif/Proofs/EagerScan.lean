import Verif.Proofs.EncScan
import Verif.Spec.Eager

/-
Scanning does not stop inside a match of an eager rule.
-/
namespace Lexertl.Eager
open Spec Line

/-- The row the table leads to from row `r` on some symbols; 0 if it has no way on. -/
def walk (d : Dfa) : Nat → List Sym → Nat
  | r, [] => r
  | r, .ch c :: w =>
    match LuState.step d r c with
    | .ok (r' + 1) => walk d (r' + 1) w
    | _ => 0
  | r, .eol :: w =>
    match getCell d.rows r ixEol with
    | .ok (r' + 1) => walk d (r' + 1) w
    | _ => 0
  | _, .bol :: _ => 0

theorem walk_append (d : Dfa) : ∀ (u v : List Sym) (r : Nat), walk d r (u ++ v) ≠ 0 → r ≠ 0 →
    walk d r u ≠ 0 ∧ walk d r (u ++ v) = walk d (walk d r u) v
  | [], v, r, _, hr => ⟨hr, rfl⟩
  | .bol :: u, v, r, h, _ => absurd rfl h
  | .ch c :: u, v, r, h, _ => by
    simp only [List.cons_append, walk] at h ⊢
    split at h
    · exact walk_append d u v _ h (by omega)
    · exact absurd rfl h
  | .eol :: u, v, r, h, _ => by
    simp only [List.cons_append, walk] at h ⊢
    split at h
    · exact walk_append d u v _ h (by omega)
    · exact absurd rfl h

theorem walk_to (d : Dfa) : ∀ (u v : List Sym) (r : Nat), walk d r u ≠ 0 →
    walk d r (u ++ v) = walk d (walk d r u) v
  | [], v, r, _ => rfl
  | .bol :: u, v, r, h => absurd rfl h
  | .ch c :: u, v, r, h => by
    simp only [List.cons_append, walk] at h ⊢
    split at h
    · exact walk_to d u v _ h
    · exact absurd rfl h
  | .eol :: u, v, r, h => by
    simp only [List.cons_append, walk] at h ⊢
    split at h
    · exact walk_to d u v _ h
    · exact absurd rfl h

variable {d : Dfa} {size n : Nat} {info : Nat → NodeData} {M At : Nat → List Sym → Prop}

/-- The words the table has a way for. -/
def Walked (d : Dfa) (M : Nat → List Sym → Prop) (j : Nat) (u : List Sym) : Prop := M j u ∧ walk d 1 u ≠ 0

theorem walk_ch {r c r' : Nat} {w : List Sym} (h : LuState.step d r c = .ok r') (h0 : r' ≠ 0) :
    walk d r (.ch c :: w) = walk d r' w := by
  obtain ⟨m, rfl⟩ : ∃ m, r' = m + 1 := ⟨r' - 1, by omega⟩
  simp only [walk, h]

theorem walk_ch0 {r c : Nat} {w : List Sym} (h : LuState.step d r c = .ok 0) : walk d r (.ch c :: w) = 0 := by
  simp only [walk, h]

theorem walk_eol {r r' : Nat} {w : List Sym} (h : getCell d.rows r ixEol = .ok r') (h0 : r' ≠ 0) :
    walk d r (.eol :: w) = walk d r' w := by
  obtain ⟨m, rfl⟩ : ∃ m, r' = m + 1 := ⟨r' - 1, by omega⟩
  simp only [walk, h]

theorem walk_eol0 {r : Nat} {w : List Sym} (h : getCell d.rows r ixEol = .ok 0) : walk d r (.eol :: w) = 0 := by
  simp only [walk, h]

/-- As a table for the words it has a way for, the table has all transitions. -/
theorem walked (A : GAuto d size n info M At) (hbol : ∀ j w, ¬ M j (.bol :: w))
    (hch : ∀ j u c, M j u → .ch c ∈ u → c < 256) (hb : ∀ j u, M j u → .bol ∉ u) :
    GAutoP d size n info (Walked d M) (fun r u => At r u ∧ walk d 1 u = r) (fun _ => False) where
  pos r u h := A.pos r u h.1
  step := by
    intro r u c h hc
    have h0 := A.pos r u h.1
    have hw : ∀ v, walk d 1 (u ++ v) = walk d r v := fun v => by rw [walk_to d u v 1 (by rw [h.2]; exact h0), h.2]
    rcases A.step r u c h.1 hc with ⟨r', h1, h2, h3⟩ | ⟨h1, _⟩
    · exact .inl ⟨r', h1, h2, h3, by rw [hw, walk_ch h1 h2]; rfl⟩
    · exact .inr ⟨h1, .inl fun j w _ hm => hm.2 (by rw [hw, walk_ch0 h1])⟩
  fin := by
    intro r u h
    have h0 := A.pos r u h.1
    obtain ⟨e, h1, h2⟩ := A.fin r u h.1
    refine ⟨e, h1, ?_⟩
    rcases h2 with ⟨h2, h3⟩ | ⟨j, h2, h3, h4, h5⟩
    · exact .inl ⟨h2, fun j hj hm => h3 j hj hm.1⟩
    · exact .inr ⟨j, h2, ⟨h3, by rw [h.2]; exact h0⟩, fun i hi hm => h4 i hi hm.1, h5⟩
  eol := by
    intro r u h
    have h0 := A.pos r u h.1
    have hw : ∀ v, walk d 1 (u ++ v) = walk d r v := fun v => by rw [walk_to d u v 1 (by rw [h.2]; exact h0), h.2]
    obtain ⟨e, h1, h2, h3⟩ := A.eol r u h.1
    refine ⟨e, h1, fun he => ⟨h2 he, by rw [hw, walk_eol h1 he]; rfl⟩, fun he => .inl fun j w _ hm => hm.2 ?_⟩
    rw [hw, walk_eol0 (by rw [h1, he])]
  ini := ⟨A.ini, rfl⟩
  bol := by
    obtain ⟨b, h1, h2, h3⟩ := A.bol
    refine ⟨b, h1, fun hb => ?_, fun _ => .inl fun j w _ hm => hbol j w hm.1⟩
    obtain ⟨j, w, _, hm⟩ := A.live _ _ (h2 hb)
    exact absurd hm (hbol j w)
  live := by
    have main : ∀ (w : List Sym) (r : Nat) (u : List Sym), (At r u ∧ walk d 1 u = r) → ∀ j, j < n → M j (u ++ w) →
        ∃ j w, j < n ∧ Walked d M j (u ++ w) := by
      intro w
      induction w with
      | nil =>
        intro r u h j hj hm
        exact ⟨j, [], hj, hm, by rw [List.append_nil, h.2]; exact A.pos r u h.1⟩
      | cons s w ih =>
        intro r u h j hj hm
        have h0 := A.pos r u h.1
        have hw : ∀ v, walk d 1 (u ++ v) = walk d r v := fun v => by rw [walk_to d u v 1 (by rw [h.2]; exact h0), h.2]
        have stop : StopAt n info M u → ∃ j w, j < n ∧ Walked d M j (u ++ w) := by
          rintro ⟨j, k1, k2, _⟩
          exact ⟨j, [], k1, by rw [List.append_nil]; exact ⟨k2, by rw [h.2]; exact h0⟩⟩
        have on : ∀ r', At r' (u ++ [s]) → walk d r [s] = r' → ∃ j w, j < n ∧ Walked d M j (u ++ w) := by
          intro r' k1 k2
          obtain ⟨j', w', k3, k4⟩ := ih r' (u ++ [s]) ⟨k1, by rw [hw, k2]⟩ j hj (by simpa using hm)
          exact ⟨j', s :: w', k3, by simpa using k4⟩
        cases s with
        | bol => exact absurd (by simp) (hb j _ hm)
        | ch c =>
          rcases A.step r u c h.1 (hch j _ c hm (by simp)) with ⟨r', k1, k2, k3⟩ | ⟨k1, k2 | k2⟩
          · exact on r' k3 (by rw [walk_ch k1 k2]; rfl)
          · exact absurd hm (k2 j w hj)
          · exact stop k2
        | eol =>
          obtain ⟨e, k1, k2, k3⟩ := A.eol r u h.1
          by_cases he : e = 0
          · rcases k3 he with k3 | k3
            · exact absurd hm (k3 j w hj)
            · exact stop k3
          · exact on e (k2 he) (by rw [walk_eol k1 he]; rfl)
    intro r u h
    obtain ⟨j, w, hj, hm⟩ := A.live r u h.1
    exact main w r u h j hj hm

/-- The row reached on characters. -/
theorem at_walk (A : GAuto d size n info M At) (u : List Sym) : (∀ s ∈ u, ∃ c, s = .ch c ∧ c < 256) →
    ∀ (r : Nat) (v : List Sym), At r v → walk d r u ≠ 0 → At (walk d r u) (v ++ u) := by
  induction u with
  | nil => intro _ r v h _; simpa [walk] using h
  | cons s u ih =>
    intro hu r v h hw
    obtain ⟨c, rfl, hc⟩ := hu s (by simp)
    rcases A.step r v c h hc with ⟨r', h1, h2, h3⟩ | ⟨h1, _⟩
    · rw [walk_ch h1 h2] at hw ⊢
      have := ih (fun s hs => hu s (by simp [hs])) r' _ h3 hw
      simpa using this
    · rw [walk_ch0 h1] at hw
      exact absurd rfl hw

theorem text_chars {inp : List Nat} (hinp : ∀ c ∈ inp, c < 256) (p k : Nat) :
    ∀ s ∈ text inp p k, ∃ c, s = .ch c ∧ c < 256 := by
  intro s hs
  unfold text at hs
  obtain ⟨c, hc, rfl⟩ := List.mem_map.1 hs
  exact ⟨c, rfl, hinp c (List.mem_of_mem_drop (List.mem_of_mem_take hc))⟩

theorem text_succ {inp : List Nat} {p k c : Nat} (h : p ≤ k) (hc : inp[k]? = some c) :
    text inp p (k + 1) = text inp p k ++ [.ch c] := by
  rw [← Enc.seg_text, ← Enc.seg_text]
  exact segSyms_succ _ inp p k h hc

/-- The table has a way along a match of an eager rule, once it has one for a first part. -/
theorem walk_on (A : GAuto d size n info M At) {P : Nat → Prop} (L : LiveAt d M At P) {inp : List Nat}
    (hinp : ∀ c ∈ inp, c < 256) {p k : Nat} (hpk : p < k) (hk : walk d 1 (text inp p k) ≠ 0) {j : Nat} (hP : P j)
    {l : Nat} (hl : l ≤ inp.length) (hm : M j (text inp p l)) :
    ∀ i, k + i ≤ l → walk d 1 (text inp p (k + i)) ≠ 0
  | 0, _ => hk
  | i + 1, hi => by
    have ih := walk_on A L hinp hpk hk hP hl hm i (by omega)
    have hlt : k + i < inp.length := by omega
    have hget : inp[k + i]? = some inp[k + i] := List.getElem?_eq_getElem hlt
    have hc := hinp _ (List.mem_of_getElem? hget)
    generalize inp[k + i] = c at hget hc
    have hat : At _ ([] ++ text inp p (k + i)) := at_walk A _ (text_chars hinp p (k + i)) 1 [] A.ini ih
    rw [List.nil_append] at hat
    have hne : text inp p (k + i) ≠ [] := Enc.text_ne (by omega) (by omega)
    have hsn : text inp p (k + i) = (text inp p (k + i)).dropLast ++ [(text inp p (k + i)).getLast hne] :=
      (List.dropLast_concat_getLast hne).symm
    have hsp : text inp p l = text inp p (k + i) ++ .ch c :: text inp (k + i + 1) l := by
      rw [Enc.text_split inp (show p ≤ k + i + 1 by omega) (show k + i + 1 ≤ l from hi), text_succ (by omega) hget]
      simp
    have hstep : LuState.step d (walk d 1 (text inp p (k + i))) c ≠ .ok 0 := by
      refine L j hP _ (text inp p (k + i)).dropLast ((text inp p (k + i)).getLast hne) c (text inp (k + i + 1) l) ?_ hc ?_
      · rw [← hsn]; exact hat
      · rw [← hsn, ← hsp]; exact hm
    rw [show k + (i + 1) = k + i + 1 from rfl, text_succ (by omega) hget, walk_to d _ _ 1 ih]
    rcases A.step _ _ c hat hc with ⟨r', h1, h2, _⟩ | ⟨h1, _⟩
    · rw [walk_ch h1 h2]; exact h2
    · exact absurd h1 hstep

/-- One attempt: if it ends after some characters, no eager rule goes on matching. -/
theorem attempt_ge (A : GAuto d size n info M At) {P : Nat → Prop} (L : LiveAt d M At P)
    (hinfo : ∀ j, j < n → ∃ a b c d e f g, info j = .fin a b c d e f g)
    (f : Flags) (npos : Nat) (sm : Internals) (inp : List Nat) (hinp : ∀ c ∈ inp, c < 256) (r : Results) (p : Nat)
    (hd : sm.dfaAt r.state = .ok d) (hp : p < r.eoi) (heoi : r.eoi ≤ inp.length) (hrows : d.rows.length < npos)
    (hlast : ∀ j u w, j < n → M j (u ++ .eol :: w) → w = [])
    (hline : ∀ u c i j w, c = 13 ∨ c = 10 → i < n → j < n → M i (u ++ [.eol]) → ¬ M j (u ++ .ch c :: w))
    (hbol : ∀ j u, M j u → .bol ∉ u) (hch : ∀ j u c, M j u → .ch c ∈ u → c < 256)
    {s : LuState} {endTok : Nat} (ha : Lexertl.attempt f npos 1 sm inp r p p = .ok (s, endTok)) (hne : p < endTok)
    {l : Nat} (hl : endTok < l) (hl' : l ≤ r.eoi) {j : Nat} (hj : j < n) (hP : P j) : ¬ M j (text inp p l) := by
  intro hm
  have A' := walked A (fun j w hm => hbol j _ hm (by simp)) hch hbol
  obtain ⟨pre, s', e', b1, b2, b3⟩ := A'.attempt (fun _ h => h.elim) hinfo f npos 1 sm inp r p hd hp heoi hrows
    (fun c => [.ch c]) (by simp)
    (fun j u w hj h => hlast j u w hj h.1)
    (by
      intro pre _ k c i j w _ _ _ hc hi hj h1 h2
      have h2 := h2.1
      rw [List.append_assoc] at h2
      exact hline _ c i j w hc hi hj h1.1 h2)
    (by
      intro pre _ k c _ _ hg
      exact ⟨A'.nextOk1 c (hinp c (List.mem_of_getElem? hg)) _, A'.nextOk1 c (hinp c (List.mem_of_getElem? hg)) _⟩)
  rw [ha] at b1
  cases b1
  have hpre : pre = [] := by
    rcases b2 with ⟨_, _, _, j, w, _, hm⟩ | ⟨h, _⟩
    · exact absurd (by simp) (hbol j _ hm.1)
    · exact h
  subst hpre
  simp only [List.nil_append, Enc.seg_text] at b3
  rcases b3 with ⟨k, i, c1, c2, rfl, c4, _⟩ | ⟨_, rfl, _⟩
  case inr => omega
  have hw : walk d 1 (text inp p endTok) ≠ 0 ∧
      QuietG n (Walked d M) f inp r.eoi (fun k => text inp p k) endTok := by
    rcases c4 with ⟨_, g, q⟩ | ⟨_, g, q | ⟨q, _⟩⟩
    · exact ⟨(walk_append d _ _ 1 g.2.1.2 (by omega)).1, q⟩
    · exact q.elim
    · exact ⟨g.2.1.2, q⟩
  refine (hw.2 l hl hl').1 j hj ⟨hm, ?_⟩
  have := walk_on A L hinp hne hw.1 hP (by omega) hm (l - endTok) (by omega)
  rwa [show endTok + (l - endTok) = l by omega] at this

/-- If the attempt ends after some characters, no eager rule matches a longer text. -/
def NotCut (E : LexEnv) (R : Rules) (r : Results) (p k : Nat) : Prop :=
  p < k → stateBol R.features r.state = false →
  ∀ (xs : List SRule), E.rules[r.state]? = some xs → ∀ x ∈ xs, ∀ e, x.2 = some e → e.eager = true →
    ∀ k', k < k' → k' ≤ r.eoi → ¬ RMatches x.2 (text E.inp p k')

theorem build_impl {tr : Traits} (hnpos : 263 ≤ tr.npos) (hc : tr.compressed = false) {addr : Nat → Nat} {R : Rules}
    {xss : List (List SRule)} (h : AnyRules tr R xss) {sm : Internals}
    (hb : buildTemp tr addr R = .ok sm) (f : Flags) (inp : List Nat) (hinp : ∀ c ∈ inp, c < charsOf tr) :
    ImplW ⟨xss, tr.npos, R.eoi, f, inp⟩
      (fun r p x k next b => LexEnv.Picks ⟨xss, tr.npos, R.eoi, f, inp⟩ r p x k next b ∧ NotCut ⟨xss, tr.npos, R.eoi, f, inp⟩ R r p k)
      (LexEnv.Unmatched ⟨xss, tr.npos, R.eoi, f, inp⟩) 1 sm := by
  have hbytes : bytesOf tr = 1 := by simp [bytesOf, hc]
  have hchars : charsOf tr = 256 := by simp [charsOf, hc]
  have I := Line.build_impl hnpos h hb f inp hinp
  rw [hbytes] at I
  refine ⟨I.eoi, fun r p hr hp heoi => ?_⟩
  obtain ⟨s, endTok, a1, a2⟩ := I.att r p hr hp heoi
  refine ⟨s, endTok, a1, ?_⟩
  rcases a2 with ⟨x, k, next, b, a2, a3, a4⟩ | a2
  case inr => exact .inr a2
  refine .inl ⟨x, k, next, b, ⟨a2, ?_⟩, a3, a4⟩
  clear a2 a4
  subst a3
  intro hk hsb xs hxs x hxm e he heg k' hk' hk''
  obtain ⟨j, hx⟩ := List.getElem?_of_mem hxm
  simp only at hxs hk'' a1 heoi
  rcases buildTemp_spec tr _ _ addr hnpos R xss h.states h.stateOk with
    hspec | ⟨msg, b1, _⟩
  case inr => rw [b1] at hb; cases hb
  obtain ⟨sm', b1, b2, _, _, _, _, _, b3⟩ := hspec
  rw [b1] at hb
  injection hb with hb
  subst hb
  have hmem := List.mem_of_getElem? hxs
  obtain ⟨d, size, At, c1, c2, c5, c3, c4, _, c6⟩ := b3 r.state _ hxs
  rw [hsb, show Wide.words tr = RMatches from funext (words_plain hc)] at c3 c6
  have hnb := Line.stateBol_of h hxs hsb
  have hW : ∀ i w, ruleWords RMatches false xs i w ↔ ∃ y, xs[i]? = some y ∧ RMatches y.2 w := by
    intro i w
    unfold ruleWords
    constructor
    · rintro ⟨y, h1, h2⟩; exact ⟨y, h1, Enc.fixBol_false.1 h2⟩
    · rintro ⟨y, h1, h2⟩; exact ⟨y, h1, Enc.fixBol_false.2 h2⟩
  have hj : j < xs.length := (List.getElem?_eq_some_iff.1 hx).1
  intro hm
  refine attempt_ge c3 c6 ?_ f tr.npos sm' inp (by rw [← hchars]; exact hinp) r p c1 hp heoi c5 ?_ ?_ ?_ ?_ a1 hk hk' hk'' hj
    ⟨hc, rfl, x, e, hx, he, heg⟩ ((hW _ _).2 ⟨x, hx, hm⟩)
  · intro j hj
    unfold ruleInfo
    rw [List.getElem?_eq_getElem hj]
    exact ⟨_, _, _, _, _, _, _, rfl⟩
  · intro j u w _ hw
    obtain ⟨y, hy, hw'⟩ := hw
    have hym := List.mem_of_getElem? hy
    rcases h.dollar xs hmem with hn | ⟨_, hn⟩
    · refine absurd ?_ (words_noEol (tr := tr) (sb := false) hn (j := j) (w := u ++ .eol :: w) ?_)
      · simp
      · rw [show Wide.words tr = RMatches from funext (words_plain hc)]
        exact ⟨y, hy, hw'⟩
    · exact (fix_shape (hn.form y.2 (List.mem_map.2 ⟨y, hym, rfl⟩)) (h.bolHead xs hmem y hym) hw').1
  · intro u c i j w hcc _ _ h1 h2
    rcases h.dollar xs hmem with hn | ⟨_, hn⟩
    · refine absurd ?_ (words_noEol (tr := tr) (sb := false) hn (j := i) (w := u ++ [.eol]) ?_)
      · simp
      · rw [show Wide.words tr = RMatches from funext (words_plain hc)]
        exact h1
    · have hK := eolWords hn (h.sets xs hmem) (h.bolHead xs hmem) false
      rw [show Wide.words tr = RMatches from funext (words_plain hc)] at hK
      exact hK.clash _ i j [] w c hcc h1 h2
  · intro i u hM
    obtain ⟨y, hy, hw⟩ := (hW _ _).1 hM
    have hn := hnb y (List.mem_of_getElem? hy)
    cases h2 : y.2 with
    | none =>
      rw [h2] at hw
      have : u = [] := hw
      simp [this]
    | some q =>
      rw [h2] at hw hn
      exact noBol_words (show q.noBol = true from hn) hw
  · intro i u c hM hcu
    obtain ⟨y, hy, hw⟩ := (hW _ _).1 hM
    have hs := h.sets xs hmem y (List.mem_of_getElem? hy)
    cases h2 : y.2 with
    | none =>
      rw [h2] at hw
      have : u = [] := hw
      rw [this] at hcu; cases hcu
    | some q =>
      rw [h2] at hw hs
      have hs : q.AllChars _ := hs
      exact Wide.matches_forall (Q := fun s => match s with | .ch c => c < 256 | _ => True) trivial trivial
        (fun t c ht ⟨x, hx, _, h2⟩ => by
          have h3 := ht.2.2.1 x hx
          rw [hchars] at h3
          show c < 256
          omega) q hs u hw _ hcu

end Lexertl.Eager
