import Verif.Proofs.LexG
import Verif.Spec.Enclosed

/-
Scanning stops where a rule for an enclosed text has matched and no other rule is
under way.
-/
namespace Lexertl.Enc
open Spec Line

/-- The words `M` gives to the rules, but none that go on after `u0`. -/
def Pruned (M : Nat → List Sym → Prop) (u0 : List Sym) (j : Nat) (u : List Sym) : Prop :=
  M j u ∧ ∀ w, w ≠ [] → u ≠ u0 ++ w

theorem append_cmp {α : Type} : ∀ (a b c d : List α), a ++ b = c ++ d → (∃ x, c = a ++ x) ∨ (∃ x, a = c ++ x)
  | [], _, c, _, _ => .inl ⟨c, rfl⟩
  | a :: as, _, [], _, _ => .inr ⟨a :: as, rfl⟩
  | a :: as, b, c :: cs, d, h => by
    simp only [List.cons_append, List.cons.injEq] at h
    obtain ⟨rfl, h⟩ := h
    rcases append_cmp as b cs d h with ⟨x, rfl⟩ | ⟨x, rfl⟩
    · exact .inl ⟨x, rfl⟩
    · exact .inr ⟨x, rfl⟩

theorem snoc_cut {u u0 : List Sym} {s : Sym} (h : ∀ w, w ≠ [] → u ≠ u0 ++ w) (hu : u ≠ u0) :
    ∀ w, w ≠ [] → u ++ [s] ≠ u0 ++ w := by
  intro w hw he
  rw [show w = w.dropLast ++ [w.getLast hw] from (List.dropLast_concat_getLast hw).symm, ← List.append_assoc] at he
  have h1 : u = u0 ++ w.dropLast := (List.append_inj' he rfl).1
  by_cases hd : w.dropLast = []
  · rw [hd, List.append_nil] at h1
    exact hu h1
  · exact h _ hd h1

variable {d : Dfa} {size n : Nat} {info : Nat → NodeData} {M At : Nat → List Sym → Prop}

theorem stopAt_pruned {u0 u : List Sym} (h : ∀ w, w ≠ [] → u ≠ u0 ++ w) (hs : StopAt n info M u) :
    StopAt n info (Pruned M u0) u := by
  obtain ⟨j, h1, h2, h3, h4⟩ := hs
  exact ⟨j, h1, ⟨h2, h⟩, fun i hi hm => h3 i hi hm.1, h4⟩

/-- If the table has no way on at `u0`, it is a table for the pruned words. -/
theorem prune (A : GAuto d size n info M At) {u0 : List Sym} (hne : u0 ≠ []) {j0 : Nat} (hj0 : j0 < n) (hm0 : M j0 u0)
    (hdead : ∀ r, At r u0 → (∀ c, c < 256 → LuState.step d r c = .ok 0) ∧ getCell d.rows r ixEol = .ok 0) :
    GAuto d size n info (Pruned M u0) (fun r u => At r u ∧ ∀ w, w ≠ [] → u ≠ u0 ++ w) where
  pos r u h := A.pos r u h.1
  step := by
    intro r u c h hc
    by_cases hu : u = u0
    · refine .inr ⟨(hdead r (hu ▸ h.1)).1 c hc, .inl fun j w _ hm => ?_⟩
      exact hm.2 (.ch c :: w) (by simp) (by rw [hu])
    · rcases A.step r u c h.1 hc with ⟨r', h1, h2, h3⟩ | ⟨h1, h2 | h2⟩
      · exact .inl ⟨r', h1, h2, h3, snoc_cut h.2 hu⟩
      · exact .inr ⟨h1, .inl fun j w hj hm => h2 j w hj hm.1⟩
      · exact .inr ⟨h1, .inr (stopAt_pruned h.2 h2)⟩
  fin := by
    intro r u h
    obtain ⟨e, h1, h2⟩ := A.fin r u h.1
    refine ⟨e, h1, ?_⟩
    rcases h2 with ⟨h2, h3⟩ | ⟨j, h2, h3, h4, h5⟩
    · exact .inl ⟨h2, fun j hj hm => h3 j hj hm.1⟩
    · exact .inr ⟨j, h2, ⟨h3, h.2⟩, fun i hi hm => h4 i hi hm.1, h5⟩
  eol := by
    intro r u h
    by_cases hu : u = u0
    · refine ⟨0, (hdead r (hu ▸ h.1)).2, fun h => absurd rfl h, fun _ => .inl fun j w _ hm => ?_⟩
      exact hm.2 (.eol :: w) (by simp) (by rw [hu])
    · obtain ⟨e, h1, h2, h3⟩ := A.eol r u h.1
      refine ⟨e, h1, fun he => ⟨h2 he, snoc_cut h.2 hu⟩, fun he => ?_⟩
      rcases h3 he with h3 | h3
      · exact .inl fun j w hj hm => h3 j w hj hm.1
      · exact .inr (stopAt_pruned h.2 h3)
  ini := ⟨A.ini, fun w hw h => by simp [hw] at h⟩
  bol := by
    have hnil : ∀ w, w ≠ [] → [] ≠ u0 ++ w := fun w hw h => by simp [hw] at h
    obtain ⟨b, h1, h2, h3⟩ := A.bol
    refine ⟨b, h1, fun hb => ⟨h2 hb, ?_⟩, fun hb => ?_⟩
    · exact snoc_cut (u := []) hnil (fun h => hne h.symm)
    · rcases h3 hb with h3 | h3
      · exact .inl fun j w hj hm => h3 j w hj hm.1
      · exact .inr (stopAt_pruned hnil h3)
  live := by
    intro r u h
    by_cases hu : ∃ w, u0 = u ++ w
    · obtain ⟨w, hw⟩ := hu
      refine ⟨j0, w, hj0, by rw [← hw]; exact hm0, fun v hv he => ?_⟩
      rw [← hw] at he
      exact hv (List.append_right_eq_self.1 he.symm)
    · obtain ⟨j, w, hj, hm⟩ := A.live r u h.1
      refine ⟨j, w, hj, hm, fun v hv he => ?_⟩
      rcases append_cmp _ _ _ _ he with ⟨x, hx⟩ | ⟨x, hx⟩
      · exact hu ⟨x, hx⟩
      · by_cases hx' : x = []
        · exact hu ⟨[], by rw [hx, hx']; simp⟩
        · exact h.2 x hx' hx

theorem seg_text (inp : List Nat) (p k : Nat) : segSyms (fun c => [Sym.ch c]) inp p k = text inp p k := by
  unfold segSyms text
  induction (inp.drop p).take (k - p) with
  | nil => rfl
  | cons a as ih => simp [ih]

theorem text_split (inp : List Nat) {p k l : Nat} (h : p ≤ k) (h' : k ≤ l) : text inp p l = text inp p k ++ text inp k l := by
  rw [← seg_text, ← seg_text, ← seg_text]
  exact segSyms_split _ _ _ _ _ h h'

theorem text_ne {inp : List Nat} {p k : Nat} (h : p < k) (h' : k ≤ inp.length) : text inp p k ≠ [] := by
  intro he
  have := congrArg List.length he
  simp [text] at this
  omega

/-- One attempt does not go beyond a text after which the table has no way on. -/
theorem attempt_le (A : GAuto d size n info M At)
    (hinfo : ∀ j, j < n → ∃ a b c d e f g, info j = .fin a b c d e f g)
    (f : Flags) (npos : Nat) (sm : Internals) (inp : List Nat) (hinp : ∀ c ∈ inp, c < 256) (r : Results) (p : Nat)
    (hd : sm.dfaAt r.state = .ok d) (hp : p < r.eoi) (heoi : r.eoi ≤ inp.length) (hrows : d.rows.length < npos)
    (hlast : ∀ j u w, j < n → M j (u ++ .eol :: w) → w = [])
    (hline : ∀ u c i j w, c = 13 ∨ c = 10 → i < n → j < n → M i (u ++ [.eol]) → ¬ M j (u ++ .ch c :: w))
    (hbol : ∀ j w, ¬ M j (.bol :: w)) {k0 : Nat} (hk : p < k0) (hk' : k0 ≤ r.eoi) {j0 : Nat} (hj0 : j0 < n)
    (hm0 : M j0 (text inp p k0))
    (hdead : ∀ r, At r (text inp p k0) → (∀ c, c < 256 → LuState.step d r c = .ok 0) ∧ getCell d.rows r ixEol = .ok 0)
    {s : LuState} {endTok : Nat} (ha : Lexertl.attempt f npos 1 sm inp r p p = .ok (s, endTok)) : endTok ≤ k0 := by
  have A' := prune A (text_ne hk (by omega)) hj0 hm0 hdead
  obtain ⟨pre, s', e', b1, b2, b3⟩ := A'.attempt stopAt_hit hinfo f npos 1 sm inp r p hd hp heoi hrows (fun c => [.ch c]) (by simp)
    (fun j u w hj h => hlast j u w hj h.1)
    (by
      intro pre _ k c i j w _ _ _ hc hi hj h1 h2
      have h2 := h2.1
      rw [List.append_assoc] at h2
      exact hline _ c i j w hc hi hj h1.1 h2)
    (by
      intro pre _ k c _ _ hg
      exact ⟨A'.nextOk1 c (hinp c (List.mem_of_getElem? hg)) _, A'.nextOk1 c (hinp c (List.mem_of_getElem? hg)) _⟩)
  rw [ha] at b1
  cases b1
  have hpre : pre = [] := by
    rcases b2 with ⟨_, _, _, j, w, _, hm⟩ | ⟨h, _⟩
    · exact absurd hm.1 (hbol j w)
    · exact h
  subst hpre
  simp only [List.nil_append, seg_text] at b3
  rcases b3 with ⟨k, j, c1, c2, rfl, c4, _⟩ | ⟨_, rfl, _⟩
  · refine Nat.le_of_not_lt fun hlt => ?_
    have hsp := text_split inp (Nat.le_of_lt hk) (Nat.le_of_lt hlt)
    have hn := text_ne (inp := inp) hlt (by omega)
    rcases c4 with ⟨_, g, _⟩ | ⟨_, g, _⟩
    · refine g.2.1.2 (text inp k0 endTok ++ [.eol]) (by simp) ?_
      rw [hsp, List.append_assoc]
    · exact g.2.1.2 _ hn hsp
  · omega

/-! Rules. -/

theorem sets_noEol : ∀ (r : Re) {ss}, r.sets = some ss → r.noEol = true
  | .chars _, _, _ => rfl
  | .alt l r, ss, h => by
    simp only [Re.sets] at h
    split at h
    · rename_i a b h1 h2
      simp [Re.noEol, sets_noEol l h1, sets_noEol r h2]
    · cases h
  | .bol, _, h => by cases h
  | .eol, _, h => by cases h
  | .seq _ _, _, h => by cases h
  | .opt _ _, _, h => by cases h
  | .star _ _, _, h => by cases h
  | .plus _ _, _, h => by cases h
  | .rep _ _ _ _, _, h => by cases h

theorem noEol_parts : ∀ (r : Re), (∀ q ∈ r.parts, q.noEol = true) → r.noEol = true
  | .seq l r, h => by
    simp only [Re.parts, List.mem_append] at h
    simp [Re.noEol, noEol_parts l fun q hq => h q (.inl hq), noEol_parts r fun q hq => h q (.inr hq)]
  | .chars _, h => h _ (by simp [Re.parts])
  | .alt _ _, h => h _ (by simp [Re.parts])
  | .bol, h => h _ (by simp [Re.parts])
  | .eol, h => h _ (by simp [Re.parts])
  | .opt _ _, h => h _ (by simp [Re.parts])
  | .star _ _, h => h _ (by simp [Re.parts])
  | .plus _ _, h => h _ (by simp [Re.parts])
  | .rep _ _ _ _, h => h _ (by simp [Re.parts])

theorem enclosed_noEol {r : Re} (h : Enclosed r) : r.noEol = true := by
  obtain ⟨us, vs, ss, s, _, _, h3, h4, _⟩ := h
  refine noEol_parts r fun q hq => ?_
  rw [h4] at hq
  simp only [List.mem_append, List.mem_map, List.mem_cons] at hq
  rcases hq with ⟨_, _, rfl⟩ | rfl | ⟨_, _, rfl⟩
  · rfl
  · exact sets_noEol s h3
  · rfl

/-- No text that a rule for an enclosed text matches, and that no other rule goes on
from, ends before `k`. -/
def Cut (E : LexEnv) (R : Rules) (r : Results) (p k : Nat) : Prop :=
  ∀ (xs : List SRule) (j : Nat) (x : SRule) (e : Re) (k0 : Nat), stateBol R.features r.state = false →
    E.rules[r.state]? = some xs → xs[j]? = some x → x.2 = some e → Enclosed e → p < k0 → k0 ≤ r.eoi →
    RMatches x.2 (text E.inp p k0) →
    (∀ i y w, i ≠ j → xs[i]? = some y → ¬ RMatches y.2 (text E.inp p k0 ++ w)) → k ≤ k0

theorem fixBol_false {K : List Sym → Prop} {w : List Sym} : FixBol false K w ↔ K w := by
  simp [FixBol]

theorem build_impl {tr : Traits} (hnpos : 263 ≤ tr.npos) (hc : tr.compressed = false) {addr : Nat → Nat} {R : Rules}
    {xss : List (List SRule)} (h : AnyRules tr R xss) {sm : Internals}
    (hb : buildTemp tr addr R = .ok sm) (f : Flags) (inp : List Nat) (hinp : ∀ c ∈ inp, c < charsOf tr) :
    ImplW ⟨xss, tr.npos, R.eoi, f, inp⟩
      (fun r p x k next b => LexEnv.Picks ⟨xss, tr.npos, R.eoi, f, inp⟩ r p x k next b ∧ Cut ⟨xss, tr.npos, R.eoi, f, inp⟩ R r p k)
      (LexEnv.Unmatched ⟨xss, tr.npos, R.eoi, f, inp⟩) 1 sm := by
  have hbytes : bytesOf tr = 1 := by simp [bytesOf, hc]
  have hchars : charsOf tr = 256 := by simp [charsOf, hc]
  have I := Line.build_impl hnpos h hb f inp hinp
  rw [hbytes] at I
  refine ⟨I.eoi, fun r p hr hp heoi => ?_⟩
  obtain ⟨s, endTok, a1, a2⟩ := I.att r p hr hp heoi
  refine ⟨s, endTok, a1, ?_⟩
  rcases a2 with ⟨x, k, next, b, a2, a3, a4⟩ | a2
  case inr => exact .inr a2
  refine .inl ⟨x, k, next, b, ⟨a2, ?_⟩, a3, a4⟩
  clear a2 a4
  subst a3
  intro xs j x e k0 hsb hxs hx he hen hk hk' hm hoth
  simp only at hxs hk' hm hoth a1 heoi
  rcases buildTemp_spec tr _ _ addr hnpos R xss h.states h.stateOk with
    hspec | ⟨msg, b1, _⟩
  case inr => rw [b1] at hb; cases hb
  obtain ⟨sm', b1, b2, _, _, _, _, _, b3⟩ := hspec
  rw [b1] at hb
  injection hb with hb
  subst hb
  have hmem := List.mem_of_getElem? hxs
  obtain ⟨d, size, At, c1, c2, c5, c3, c4, c6⟩ := b3 r.state _ hxs
  rw [hsb, show Wide.words tr = RMatches from funext (words_plain hc)] at c3 c6
  have hnb := Line.stateBol_of h hxs hsb
  have hW : ∀ i w, ruleWords RMatches false xs i w ↔ ∃ y, xs[i]? = some y ∧ RMatches y.2 w := by
    intro i w
    unfold ruleWords
    constructor
    · rintro ⟨y, h1, h2⟩; exact ⟨y, h1, fixBol_false.1 h2⟩
    · rintro ⟨y, h1, h2⟩; exact ⟨y, h1, fixBol_false.2 h2⟩
  have hj : j < xs.length := (List.getElem?_eq_some_iff.1 hx).1
  have hMj : ruleWords RMatches false xs j (text inp p k0) := (hW _ _).2 ⟨x, hx, hm⟩
  refine attempt_le c3 ?_ f tr.npos sm' inp (by rw [← hchars]; exact hinp) r p c1 hp heoi c5 ?_ ?_ ?_ hk hk' hj hMj
    (fun r' hr' => c6.1 j ⟨hc, rfl, x, e, hx, he, hen⟩ r' _ hr' hMj fun i w hi hne hM => ?_) a1
  · intro j hj
    unfold ruleInfo
    rw [List.getElem?_eq_getElem hj]
    exact ⟨_, _, _, _, _, _, _, rfl⟩
  · intro j u w _ hw
    obtain ⟨y, hy, hw'⟩ := hw
    have hym := List.mem_of_getElem? hy
    rcases h.dollar xs hmem with hn | ⟨_, hn⟩
    · refine absurd ?_ (words_noEol (tr := tr) (sb := false) hn (j := j) (w := u ++ .eol :: w) ?_)
      · simp
      · rw [show Wide.words tr = RMatches from funext (words_plain hc)]
        exact ⟨y, hy, hw'⟩
    · exact (fix_shape (hn.form y.2 (List.mem_map.2 ⟨y, hym, rfl⟩)) (h.bolHead xs hmem y hym) hw').1
  · intro u c i j w hcc _ _ h1 h2
    rcases h.dollar xs hmem with hn | ⟨_, hn⟩
    · refine absurd ?_ (words_noEol (tr := tr) (sb := false) hn (j := i) (w := u ++ [.eol]) ?_)
      · simp
      · rw [show Wide.words tr = RMatches from funext (words_plain hc)]
        exact h1
    · have hK := eolWords hn (h.sets xs hmem) (h.bolHead xs hmem) false
      rw [show Wide.words tr = RMatches from funext (words_plain hc)] at hK
      exact hK.clash _ i j [] w c hcc h1 h2
  · intro i w hM
    obtain ⟨y, hy, hw⟩ := (hW _ _).1 hM
    have hn := hnb y (List.mem_of_getElem? hy)
    cases h2 : y.2 with
    | none => rw [h2] at hw; cases hw
    | some q =>
      rw [h2] at hw hn
      exact noBol_words (show q.noBol = true from hn) hw (by simp)
  · obtain ⟨y, hy, hw⟩ := (hW _ _).1 hM
    exact hoth i y w hne hy hw

theorem cut_choice {E : LexEnv} {P : Results → Nat → Nat → Prop} :
    Choice E (fun r p x k next b => E.Picks r p x k next b ∧ P r p k) where
  mem h := (picks_choice E).mem h.1
  le h := (picks_choice E).le h.1
  next S h := (picks_choice E).next S h.1

/-- At `k` rule `j` is the first to end a text out of those that can stop the scanning,
and scanning does not go beyond `k`: it is chosen. -/
theorem pick_unique {E : LexEnv} {R : Rules} {r : Results} {p : Nat} {y : SRule} {k' next : Nat} {b : Bool}
    (hpick : E.Picks r p y k' next b) (hcut : Cut E R r p k') (hsb : stateBol R.features r.state = false)
    {xs : List SRule} (hxs : E.rules[r.state]? = some xs) (hnb : ∀ x ∈ xs, NoBol x.2) {j : Nat} {x : SRule} (hx : xs[j]? = some x)
    {e : Re} (he : x.2 = some e) (hen : Enclosed e) {k : Nat} (hk : p < k) (hk' : k ≤ r.eoi) (hm : RMatches x.2 (text E.inp p k))
    (hlazy : ∀ y ∈ xs, ¬ AllGreedy y.2 → ∀ k', p ≤ k' → k' < k → ¬ RMatches y.2 (text E.inp p k'))
    (hoth : ∀ i y w, i ≠ j → xs[i]? = some y → ¬ RMatches y.2 (text E.inp p k ++ w)) :
    y = x ∧ k' = k ∧ next = x.1.nextDfa ∧ b = (E.inp[k - 1]? == some 10) := by
  have hle := hcut xs j x e k hsb hxs hx he hen hk hk' hm hoth
  have hline : ∀ {y}, y ∈ xs → ∀ w, LineMatch (E.atLine r) y.2 w ↔ RMatches y.2 w := fun hy w => line_noBol (hnb _ hy) w
  have hmx : LineMatch (E.atLine r) x.2 (text E.inp p k) := (hline (List.mem_of_getElem? hx) _).2 hm
  have hin : x.2 ∈ xs.map (·.2) := List.mem_map.2 ⟨x, List.mem_of_getElem? hx, rfl⟩
  have hlong : ∀ {k'}, NoLonger E.flags.eol (LineMatch (E.atLine r)) (xs.map (·.2)) E.inp p r.eoi k' → ¬ k' < k :=
    fun h hlt => (h k hlt hk').1 x.2 hin hmx
  have hearly : ∀ {k'}, p ≤ k' → Early (LineMatch (E.atLine r)) (xs.map (·.2)) E.inp p k' → ¬ k' < k := by
    rintro k' hp ⟨i, e', hf, hi, hg⟩ hlt
    obtain ⟨e'', h1, h2⟩ := hf.hit
    rw [h1] at hi; cases hi
    obtain ⟨y, hy, rfl⟩ := List.mem_map.1 (List.mem_of_getElem? h1)
    exact hlazy y hy hg k' hp hlt ((hline hy _).1 h2)
  have hat : ∀ {i w}, First (LineMatch (E.atLine r)) (xs.map (·.2)) (text E.inp p k ++ w) i →
      i = j ∧ RMatches x.2 (text E.inp p k ++ w) := by
    rintro i w hf
    obtain ⟨e'', h1, h2⟩ := hf.hit
    rw [List.getElem?_map] at h1
    cases hy : xs[i]? with
    | none => rw [hy] at h1; cases h1
    | some y =>
      rw [hy] at h1; cases h1
      have h3 := (hline (List.mem_of_getElem? hy) _).1 h2
      by_cases hij : i = j
      · subst hij
        rw [hx] at hy; cases hy
        exact ⟨rfl, h3⟩
      · exact absurd h3 (hoth i y w hij hy)
  cases hpick with
  | text xs' y k' i g1 g2 g3 g4 g5 g6 =>
    rw [hxs] at g1; cases g1
    have hkk : k' = k := by
      rcases g6 with g6 | ⟨g6, _⟩
      · have := hearly (by omega) g6; omega
      · have := hlong g6; omega
    subst hkk
    obtain ⟨rfl, _⟩ := hat (w := []) (by simpa using g5)
    rw [hx] at g2; cases g2
    exact ⟨rfl, rfl, rfl, rfl⟩
  | line xs' y k' i g1 g2 g3 g4 g5 g6 g7 g8 =>
    rw [hxs] at g1; cases g1
    have hkk : k' = k := by
      have := hlong g8; omega
    subst hkk
    obtain ⟨rfl, h⟩ := hat g7
    rw [he] at h
    exact absurd (by simp) (noEol_words (enclosed_noEol hen) h)
  | empty xs' y i g1 g2 g3 g4 =>
    rw [hxs] at g1; cases g1
    rcases g4 with g4 | ⟨g4, _⟩
    · exact absurd hk (hearly (Nat.le_refl _) g4)
    · exact absurd hk (hlong g4)

/-- Something matches: the call does not report that nothing does. -/
theorem not_unmatched {E : LexEnv} {r : Results} {p : Nat} {xs : List SRule} (hxs : E.rules[r.state]? = some xs)
    (hnb : ∀ x ∈ xs, NoBol x.2) {x : SRule} (hx : x ∈ xs) {k : Nat} (hk : p < k) (hk' : k ≤ r.eoi)
    (hm : RMatches x.2 (text E.inp p k)) : ¬ E.Unmatched r p := by
  rintro ⟨xs', g1, g2, _⟩
  rw [hxs] at g1; cases g1
  exact (g2 k hk hk').1 x.2 (List.mem_map.2 ⟨x, hx, rfl⟩) ((line_noBol (hnb x hx) _).2 hm)

end Lexertl.Enc
