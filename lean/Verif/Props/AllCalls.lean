import Verif.Props.Cut
import Verif.Props.Classes

/-
C71 and C74 for all calls up to the end of the input.
-/
namespace Lexertl.Props
open Spec

/-- A token depends on the lexer state and the position only. -/
theorem plain_same {tr : Traits} (hnpos : 263 ≤ tr.npos) {R : Rules} {sm : Internals} {f : Flags} {r r' : Results} {xs : List SRule}
    (h : PlainLexer tr R sm f r xs) {inp : List Nat} (hinp : ∀ c ∈ inp, c < charsOf tr) (hp : r.second < r.eoi) (he : r.eoi ≤ inp.length)
    (h1 : r'.state = r.state) (h2 : r'.second = r.second) (h3 : r'.eoi = r.eoi) {r1 : Results} (hr : lookup f tr.npos (bytesOf tr) sm inp r = .ok r1) :
    (∃ r2, lookup f tr.npos (bytesOf tr) sm inp r' = .ok r2 ∧ sameToken r1 r2) ∧ r1.second ≤ r.eoi ∧ (f.advance = true → r.second < r1.second) := by
  obtain ⟨xss, a1, a2, a3⟩ := h.rules
  obtain ⟨addr, a4⟩ := h.built
  obtain ⟨r1', g1, c1⟩ := C01_lookup_total hnpos a1 a2 a4 f hinp hp he a3 h.nonempty h.ids
  rw [hr] at g1
  cases g1
  obtain ⟨r2, g2, c2⟩ := C01_lookup_total hnpos a1 a2 a4 f hinp (r := r') (by omega) (by omega) (h1 ▸ a3) h.nonempty h.ids
  rw [h2, h3] at c2
  refine ⟨⟨r2, g2, ?_⟩, ?_⟩
  · rcases c1 with ⟨k, j, x, d1, d2, d3, d4, d5, d6⟩ | ⟨d1, d2, d3, d4, d5⟩
    · rcases c2 with ⟨k', j', y, e1, e2, e3, e4, e5, e6⟩ | ⟨e1, -⟩
      · obtain ⟨rfl, rfl⟩ := order_best_unique d1 e1
        rw [d2] at e2
        cases e2
        exact ⟨d3.trans e3.symm, d4.trans e4.symm, d5.trans e5.symm, d6.trans e6.symm⟩
      · obtain ⟨e, g1, g2⟩ := d1.hit
        exact absurd g2 (e1 k d1.nonempty d1.inside e (List.mem_of_getElem? g1))
    · rcases c2 with ⟨k', j', y, e1, e2, e3, e4, e5, e6⟩ | ⟨e1, e2, e3, e4, e5⟩
      · obtain ⟨e, g1, g2⟩ := e1.hit
        exact absurd g2 (d1 k' e1.nonempty e1.inside e (List.mem_of_getElem? g1))
      · exact ⟨d2.trans e2.symm, d3.trans e3.symm, d4.trans e4.symm, d5.trans e5.symm⟩
  · rcases c1 with ⟨k, j, x, d1, d2, d3, d4, d5, d6⟩ | ⟨d1, d2, d3, d4, d5⟩
    · have := d1.nonempty
      have := d1.inside
      exact ⟨by omega, fun _ => by omega⟩
    · refine ⟨by rw [d3]; split <;> omega, fun ha => by rw [d3, if_pos ha]; omega⟩

/-- If two lexers agree on each call, they agree on all calls up to the end. -/
theorem all_calls {tr : Traits} (hnpos : 263 ≤ tr.npos) {R R' : Rules} {sm sm' : Internals} {f : Flags} {xs ys : List SRule} (hf : f.multiState = false) (ha : f.advance = true)
    {inp inp' : List Nat} (hinp : ∀ c ∈ inp, c < charsOf tr) (hinp' : ∀ c ∈ inp', c < charsOf tr) {e s : Nat} (he : e ≤ inp.length) (he' : e ≤ inp'.length)
    (hstep : ∀ r : Results, r.state = s → r.eoi = e → r.second < e →
      ∃ r1 r2, lookup f tr.npos (bytesOf tr) sm inp r = .ok r1 ∧ lookup f tr.npos (bytesOf tr) sm' inp' r = .ok r2 ∧ sameToken r1 r2) :
    ∀ (n : Nat) (r r' : Results), PlainLexer tr R sm f r xs → PlainLexer tr R' sm' f r' ys → r.state = s → r'.state = s → r.eoi = e → r'.eoi = e →
      r.second = r'.second → r.second ≤ e → e - r.second ≤ n →
    ∃ rs rs' z z', Lexer.Upto ⟨f, tr.npos, bytesOf tr, sm, inp⟩ e r rs z ∧ Lexer.Upto ⟨f, tr.npos, bytesOf tr, sm', inp'⟩ e r' rs' z' ∧
      rs.map (tokenAt 0) = rs'.map (tokenAt 0) := by
  intro n
  induction n with
  | zero =>
    intro r r' _ _ h1 h2 h3 h4 h5 h6 h7
    exact ⟨[], [], r, r', .done _ (by omega), .done _ (by omega), rfl⟩
  | succ n ih =>
    intro r r' h h' h1 h2 h3 h4 h5 h6 h7
    by_cases hd : r.second = e
    · exact ⟨[], [], r, r', .done _ (by omega), .done _ (by omega), rfl⟩
    obtain ⟨r1, r2, g1, g2, g3, g4, g5, g6⟩ := hstep r h1 h3 (by omega)
    obtain ⟨⟨r3, i1, i2, i3, i4, i5⟩, -⟩ := plain_same hnpos (r := r) (r' := r') (plain_congr h' (h1.trans h2.symm)) hinp' (by omega) (by omega)
      (h2.trans h1.symm) h5.symm (h4.trans h3.symm) g2
    obtain ⟨-, j1, j2⟩ := plain_same hnpos h hinp (by omega) (by omega) rfl rfl rfl g1
    have j2 := j2 ha
    have k1 := nextLoop_keeps hf _ _ _ _ _ g1
    have k2 := nextLoop_keeps hf _ _ _ _ _ i1
    dsimp only at k1 k2
    obtain ⟨rs, rs', z, z', l1, l2, l3⟩ := ih r1 r3 (plain_congr h k1.2) (plain_congr h' k2.2) (k1.2.trans h1) (k2.2.trans h2) (k1.1.trans h3) (k2.1.trans h4)
      (by omega) (by omega) (by omega)
    refine ⟨r1 :: rs, r3 :: rs', z, z', .more _ _ _ _ hd ⟨by simp, _, g1⟩ l1, .more _ _ _ _ (by omega) ⟨by simp, _, i1⟩ l2, ?_⟩
    simp only [List.map_cons, l3, tokenAt, g3.trans i2, g4.trans i3, g5.trans i4, g6.trans i5]

/-- C71, for all calls: the order of rules that do not compete does not matter. -/
theorem C71_order_all {tr : Traits} (hnpos : 263 ≤ tr.npos) {R R' : Rules} {sm sm' : Internals} {f : Flags} {r : Results} {xs ys : List SRule}
    (hf : f.multiState = false) (ha : f.advance = true)
    (h : PlainLexer tr R sm f r xs) (h' : PlainLexer tr R' sm' f r ys) (hxy : ∀ x, x ∈ xs ↔ x ∈ ys)
    (hdis : ∀ x ∈ xs, ∀ y ∈ xs, ∀ w, RMatches x.2 w → RMatches y.2 w → x.1.id = y.1.id ∧ x.1.userId = y.1.userId)
    {inp : List Nat} (hinp : ∀ c ∈ inp, c < charsOf tr) (hp : r.second ≤ r.eoi) (he : r.eoi ≤ inp.length) :
    ∃ rs rs' z z', Lexer.Upto ⟨f, tr.npos, bytesOf tr, sm, inp⟩ r.eoi r rs z ∧ Lexer.Upto ⟨f, tr.npos, bytesOf tr, sm', inp⟩ r.eoi r rs' z' ∧
      rs.map (tokenAt 0) = rs'.map (tokenAt 0) :=
  all_calls hnpos hf ha hinp hinp he he
    (fun _ h1 h2 h3 => C71_order hnpos (plain_congr h h1) (plain_congr h' h1) hxy hdis hinp (by omega) (by omega))
    _ r r h h' rfl rfl rfl rfl rfl hp (Nat.le_refl _)

/-- C71, for all calls: a rule all of whose texts are matched by earlier rules can be left out. -/
theorem C71_suppressed_all {tr : Traits} (hnpos : 263 ≤ tr.npos) {R R' : Rules} {sm sm' : Internals} {f : Flags} {r : Results} {xs ys : List SRule} {x : SRule}
    (hf : f.multiState = false) (ha : f.advance = true)
    (h : PlainLexer tr R sm f r (xs ++ x :: ys)) (h' : PlainLexer tr R' sm' f r (xs ++ ys))
    (hx : ∀ w, RMatches x.2 w → ∃ y ∈ xs, RMatches y.2 w)
    {inp : List Nat} (hinp : ∀ c ∈ inp, c < charsOf tr) (hp : r.second ≤ r.eoi) (he : r.eoi ≤ inp.length) :
    ∃ rs rs' z z', Lexer.Upto ⟨f, tr.npos, bytesOf tr, sm, inp⟩ r.eoi r rs z ∧ Lexer.Upto ⟨f, tr.npos, bytesOf tr, sm', inp⟩ r.eoi r rs' z' ∧
      rs.map (tokenAt 0) = rs'.map (tokenAt 0) :=
  all_calls hnpos hf ha hinp hinp he he
    (fun _ h1 h2 h3 => C71_suppressed hnpos (plain_congr h h1) (plain_congr h' h1) hx hinp (by omega) (by omega))
    _ r r h h' rfl rfl rfl rfl rfl hp (Nat.le_refl _)

/-- C74, for all calls. -/
theorem C74_classes_all {tr : Traits} (hnpos : 263 ≤ tr.npos) {R : Rules} {sm : Internals} {f : Flags} {r : Results} {xs : List SRule}
    (hf : f.multiState = false) (ha : f.advance = true)
    (h : PlainLexer tr R sm f r xs) {g : Nat → Nat} (hg : ∀ x ∈ xs, Indistinct g x.2) {inp : List Nat} (hinp : ∀ c ∈ inp, c < charsOf tr) (hinp' : ∀ c ∈ inp, g c < charsOf tr)
    (hp : r.second ≤ r.eoi) (he : r.eoi ≤ inp.length) :
    ∃ rs rs' z z', Lexer.Upto ⟨f, tr.npos, bytesOf tr, sm, inp⟩ r.eoi r rs z ∧ Lexer.Upto ⟨f, tr.npos, bytesOf tr, sm, inp.map g⟩ r.eoi r rs' z' ∧
      rs.map (tokenAt 0) = rs'.map (tokenAt 0) :=
  all_calls hnpos hf ha hinp (fun c hc => by obtain ⟨d, hd, rfl⟩ := List.mem_map.1 hc; exact hinp' d hd) he (by rw [List.length_map]; exact he)
    (fun _ h1 h2 h3 => C74_classes hnpos (plain_congr h h1) hg hinp hinp' (by omega) (by omega))
    _ r r h h rfl rfl rfl rfl rfl hp (Nat.le_refl _)

/-- C74, for all calls, from the texts of the rules: ignoring case, a text and the same text in lower case have the same tokens. -/
theorem C74_icase_all {E : TokEnv} (hE : TokEnvOk E) (hC : CharsOk E) (hA : AsciiCase E) {tr : Traits} (hmax : E.max + 1 = charsOf tr) (hnpos : 263 ≤ tr.npos)
    (hcomp : tr.compressed = false) {f : ReFlags} (hf : f.icase = true) {cs : List Call} {M : List (List Nat × Re)} {es : List (Re × Nat × Nat)}
    (h : Program E tr.npos f cs M es) (hmac : ∀ name w, .insertMacro name w ∈ cs → KeepsCase w) (hrule : ∀ w id uid, .push w id uid ∈ cs → KeepsCase w)
    (hbol : ∀ e ∈ es, e.1.noBol = true) (heol : ∀ e ∈ es, e.1.noEol = true) (hcount : (es.map fun e => e.1.slots tr).sum + 2 ≤ tr.npos)
    (hempty : ∀ e ∈ es, ¬ e.1.Matches []) (hskip : ∀ e ∈ es, e.2.1 ≠ tr.npos - 1)
    {o : RulesObj} (ho : AllOk E tr (RulesObj.new tr f) cs o) {addr : Nat → Nat} {sm : Internals} (hsm : buildTemp tr addr o.rules = .ok sm)
    {fl : Flags} (hfl : fl.multiState = false) (ha : fl.advance = true) {inp : List Nat} (hinp : ∀ c ∈ inp, c < charsOf tr) :
    ∃ rs rs' z z', Lexer.Upto ⟨fl, tr.npos, bytesOf tr, sm, inp⟩ inp.length (.mk' tr.npos 0 inp.length) rs z ∧
      Lexer.Upto ⟨fl, tr.npos, bytesOf tr, sm, inp.map asciiLower⟩ inp.length (.mk' tr.npos 0 inp.length) rs' z' ∧ rs.map (tokenAt 0) = rs'.map (tokenAt 0) := by
  obtain ⟨xs, hP, hI⟩ := icase_plain hE hC hA hmax hcomp hf h hmac hrule hbol heol hcount hempty hskip ho hsm fl (r := .mk' tr.npos 0 inp.length) rfl
  exact C74_classes_all hnpos hfl ha hP hI hinp (icase_lower hE hA hmax hinp) (Nat.zero_le _) (Nat.le_refl _)

/-- The hypotheses are met: `[a-b]+` does not tell `a` and `b` apart.  (For the other theorems: the examples for C71 and C74 are lexers of one
lexer state with these flags.) -/
example {inp : List Nat} (hinp : ∀ c ∈ inp, c < 256) : ∃ rs rs' z z',
    Lexer.Upto ⟨⟨false, false, false, false, true⟩, 65535, 1, Ex.machine (Ex.Order.one [Ex.Order.xAB]), inp⟩ inp.length (.mk' 65535 0 inp.length) rs z ∧
    Lexer.Upto ⟨⟨false, false, false, false, true⟩, 65535, 1, Ex.machine (Ex.Order.one [Ex.Order.xAB]), inp.map fun c => if c = 97 then 98 else if c = 98 then 97 else c⟩
      inp.length (.mk' 65535 0 inp.length) rs' z' ∧ rs.map (tokenAt 0) = rs'.map (tokenAt 0) := by
  have hABn : ¬ RMatches Ex.Order.xAB.2 [] := by
    rintro ⟨n, hn, hp⟩
    match n, hn, hp with
    | n + 1, _, ⟨u, v, h1, ⟨c, _, h2⟩, _⟩ =>
      rw [h2] at h1
      cases h1
  have hone : Ex.One Ex.tr Ex.Order.xAB := ⟨Ex.denAB, by simp only [CharSets, Ex.Order.xAB, Re.AllChars]; decide, rfl, rfl, rfl⟩
  refine C74_classes_all (tr := Ex.tr) (by decide) (f := ⟨false, false, false, false, true⟩) (r := .mk' 65535 0 inp.length) rfl rfl
    (Ex.Order.plain (xs := [Ex.Order.xAB]) rfl ?_ ?_ ?_ (by decide) (by decide) (by decide +kernel) _) ?_ hinp ?_ (Nat.zero_le _) (Nat.le_refl _)
  · simpa using hone
  · simp only [List.mem_singleton, forall_eq]; rfl
  · simpa only [NoEmpty, List.map_cons, List.map_nil, List.mem_singleton, forall_eq] using hABn
  · simp only [List.mem_singleton, forall_eq]
    intro c
    simp only [Mem, List.mem_singleton, exists_eq_left]
    split
    · omega
    · split <;> omega
  · intro c hc
    have := hinp c hc
    change _ < 256
    split
    · omega
    · split <;> omega

end Lexertl.Props
