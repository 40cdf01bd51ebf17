import Verif.Spec.Cut
import Verif.Proofs.Table
import Verif.Props.Lookahead

/-
C73: a text can be cut where no token can cross.
-/
namespace Lexertl.Props
open Spec

theorem nextLoop_keeps {f : Flags} {npos bytes : Nat} {sm : Internals} {inp : List Nat} (hf : f.multiState = false) :
    ∀ (n : Nat) (r : Results) (curr tok : Nat) (r' : Results), nextLoop f npos bytes sm inp n r curr tok = .ok r' → r'.eoi = r.eoi ∧ r'.state = r.state := by
  intro n
  induction n with
  | zero => intro r curr tok r' h; cases h
  | succ n ih =>
    intro r curr tok r' h
    unfold nextLoop at h
    split at h
    · cases h; exact ⟨rfl, rfl⟩
    · obtain ⟨⟨s, t⟩, -, h⟩ := Lexertl.bind_ok h
      dsimp only at h
      split at h
      · obtain ⟨⟨s', st⟩, -, h⟩ := Lexertl.bind_ok h
        simp only [hf, Bool.false_eq_true, if_false] at h
        split at h
        · have := ih _ _ _ _ h; exact this
        · split at h
          · have := ih _ _ _ _ h; exact this
          · cases h; exact ⟨rfl, rfl⟩
      · obtain ⟨c, -, h⟩ := Lexertl.bind_ok h
        cases h
        exact ⟨rfl, rfl⟩

theorem plain_congr {tr : Traits} {R : Rules} {sm : Internals} {f : Flags} {r r' : Results} {xs : List SRule} (h : PlainLexer tr R sm f r xs)
    (hs : r'.state = r.state) : PlainLexer tr R sm f r' xs := ⟨hs ▸ h.rules, h.built, h.nonempty, h.ids⟩

theorem Upto.append {L : Lexer} {a b : Nat} {r z z' : Results} {rs rs' : List Results} (h : L.Upto a r rs z) (h' : L.Upto b z rs' z')
    (hlt : ∀ x ∈ r :: rs, x.second ≤ a) (hab : a ≤ b) : L.Upto b r (rs ++ rs') z' := by
  induction h with
  | done => exact h'
  | more r r' rs z g1 g2 _ ih =>
    have hr := hlt r (List.mem_cons_self ..)
    exact .more _ _ _ _ (fun he => g1 (by omega)) g2 (ih h' (fun x hx => hlt x (List.mem_cons_of_mem _ hx)))

/-- Two runs side by side: `inp'` is the part of `inp` from `d` to `r'.eoi + d`. -/
theorem cut_run {tr : Traits} (hnpos : 263 ≤ tr.npos) {R : Rules} {sm : Internals} {f : Flags} {xs : List SRule} (hf : f.multiState = false) (ha : f.advance = true)
    {inp inp' : List Nat} (hinp : ∀ c ∈ inp, c < charsOf tr) (hinp' : ∀ c ∈ inp', c < charsOf tr) {d : Nat} {e e' : Nat} (hl : e ≤ inp.length) (hl' : e' ≤ inp'.length)
    (hee : e' + d ≤ e) (hsame : ∀ p k, k ≤ e' → text inp (p + d) (k + d) = text inp' p k)
    (hcut : ∀ p k, p < e' → e' + d < k → k ≤ e → ∀ x ∈ xs, ¬ RMatches x.2 (text inp (p + d) k)) :
    ∀ (n : Nat) (r r' : Results), PlainLexer tr R sm f r xs → r.eoi = e → r'.eoi = e' → r.second = r'.second + d → r'.second ≤ e' → r'.state = r.state → e' - r'.second ≤ n →
    ∃ rs rs' z z', Lexer.Upto ⟨f, tr.npos, bytesOf tr, sm, inp⟩ (e' + d) r rs z ∧ Lexer.Upto ⟨f, tr.npos, bytesOf tr, sm, inp'⟩ e' r' rs' z' ∧
      rs.map (tokenAt 0) = rs'.map (tokenAt d) ∧ z.eoi = e ∧ z.second = e' + d ∧ z.state = r.state ∧ ∀ x ∈ r :: rs, x.second ≤ e' + d := by
  intro n
  induction n with
  | zero =>
    intro r r' _ h1 h2 h3 h4 h5 h6
    exact ⟨[], [], r, r', .done _ (by omega), .done _ (by omega), rfl, h1, by omega, rfl, by simp; omega⟩
  | succ n ih =>
    intro r r' h h1 h2 h3 h4 h5 h6
    by_cases hd : r'.second = e'
    · exact ⟨[], [], r, r', .done _ (by omega), .done _ (by omega), rfl, h1, by omega, rfl, by simp; omega⟩
    obtain ⟨xss, a1, a2, a3⟩ := h.rules
    obtain ⟨addr, a4⟩ := h.built
    obtain ⟨r1, g1, c1⟩ := C01_lookup_total hnpos a1 a2 a4 f hinp (show r.second < r.eoi by omega) (by omega) a3 h.nonempty h.ids
    obtain ⟨r2, g2, c2⟩ := C01_lookup_total hnpos a1 a2 a4 f hinp' (show r'.second < r'.eoi by omega) (by omega) (h5 ▸ a3) h.nonempty h.ids
    have k1 := nextLoop_keeps hf _ _ _ _ _ g1
    have k2 := nextLoop_keeps hf _ _ _ _ _ g2
    dsimp only at k1 k2
    have hstep : r2.second ≤ e' ∧ r'.second < r2.second ∧ tokenAt 0 r1 = tokenAt d r2 := by
      rcases c2 with ⟨k, j, x, d1, d2, d3, d4, d5, d6⟩ | ⟨d1, d2, d3, d4, d5⟩
      · have hk := d1.inside
        have hk' := d1.nonempty
        have hb : Best RMatches (xs.map (·.2)) inp r.second r.eoi (k + d) j := by
          obtain ⟨e0, q1, q2⟩ := d1.hit
          have ht := hsame r'.second k (by omega)
          rw [← h3] at ht
          refine ⟨by omega, by omega, ⟨e0, q1, ht ▸ q2⟩, fun i e0 hi he0 hm => d1.earliest i e0 hi he0 (ht ▸ hm), fun k' i1 i2 e0 he0 hm => ?_⟩
          by_cases hk2 : k' ≤ e' + d
          · have ht := hsame r'.second (k' - d) (by omega)
            rw [← h3, Nat.sub_add_cancel (by omega)] at ht
            exact d1.longest (k' - d) (by omega) (by omega) e0 he0 (ht ▸ hm)
          · obtain ⟨x, hx, rfl⟩ := List.mem_map.1 he0
            exact hcut r'.second k' (by omega) (by omega) (by omega) x hx (h3 ▸ hm)
        rcases c1 with ⟨k', j', x', e1, e2, e3, e4, e5, e6⟩ | ⟨e1, -⟩
        · obtain ⟨q1, rfl⟩ := order_best_unique hb e1
          rw [d2] at e2
          cases e2
          refine ⟨by omega, by omega, ?_⟩
          simp only [tokenAt, Prod.mk.injEq]
          exact ⟨by omega, by omega, e5.trans d5.symm, e6.trans d6.symm⟩
        · obtain ⟨e0, q1, q2⟩ := hb.hit
          exact absurd q2 (e1 _ hb.nonempty hb.inside e0 (List.mem_of_getElem? q1))
      · rw [if_pos ha] at d3
        rcases c1 with ⟨k', j', x', e1, e2, e3, e4, e5, e6⟩ | ⟨e1, e2, e3, e4, e5⟩
        · exfalso
          have hk := e1.inside
          have hk' := e1.nonempty
          obtain ⟨e0, q1, q2⟩ := e1.hit
          have he0 := List.mem_of_getElem? q1
          by_cases hk2 : k' ≤ e' + d
          · have ht := hsame r'.second (k' - d) (by omega)
            rw [← h3, Nat.sub_add_cancel (by omega)] at ht
            exact d1 (k' - d) (by omega) (by omega) e0 he0 (ht ▸ q2)
          · obtain ⟨x, hx, rfl⟩ := List.mem_map.1 he0
            exact hcut r'.second k' (by omega) (by omega) (by omega) x hx (h3 ▸ q2)
        · rw [if_pos ha] at e3
          refine ⟨by omega, by omega, ?_⟩
          simp only [tokenAt, Prod.mk.injEq]
          exact ⟨by omega, by omega, e4.trans d4.symm, e5.trans d5.symm⟩
    obtain ⟨s1, s2, s3⟩ := hstep
    have s4 := s3
    simp only [tokenAt, Prod.mk.injEq] at s4
    obtain ⟨rs, rs', z, z', i1, i2, i3, i4, i5, i6, i7⟩ := ih r1 r2 (plain_congr h k1.2) (k1.1.trans h1) (k2.1.trans h2) (by omega) s1
      (k2.2.trans (h5.trans k1.2.symm)) (by clear c1 c2; omega)
    refine ⟨r1 :: rs, r2 :: rs', z, z', .more _ _ _ _ (by omega) ⟨by simp, _, g1⟩ i1, .more _ _ _ _ hd ⟨by simp, _, g2⟩ i2, ?_, i4, i5, i6.trans k1.2, ?_⟩
    · simp only [List.map_cons, s3, i3]
    · intro x hx
      rcases List.mem_cons.1 hx with rfl | hx
      · omega
      · exact i7 x hx

/-- C73: a text can be cut where no rule matches across: the tokens of the whole text, from the first call to the
end, are those of the first part followed by those of the second part. -/
theorem C73_cut {tr : Traits} (hnpos : 263 ≤ tr.npos) {R : Rules} {sm : Internals} {f : Flags} {xs : List SRule} (hf : f.multiState = false) (ha : f.advance = true)
    {u v : List Nat} (hu : ∀ c ∈ u, c < charsOf tr) (hv : ∀ c ∈ v, c < charsOf tr) (h : ∀ eoi, PlainLexer tr R sm f (.mk' tr.npos 0 eoi) xs) (hcut : NoneAcross xs u v) :
    let L : List Nat → Lexer := fun inp => ⟨f, tr.npos, bytesOf tr, sm, inp⟩
    ∃ rs rs1 rs2 z z1 z2, (L (u ++ v)).Upto (u ++ v).length (.mk' tr.npos 0 (u ++ v).length) rs z ∧
      (L u).Upto u.length (.mk' tr.npos 0 u.length) rs1 z1 ∧ (L v).Upto v.length (.mk' tr.npos 0 v.length) rs2 z2 ∧
      rs.map (tokenAt 0) = rs1.map (tokenAt 0) ++ rs2.map (tokenAt u.length) := by
  intro L
  have huv : ∀ c ∈ u ++ v, c < charsOf tr := fun c hc => (List.mem_append.1 hc).elim (hu c) (hv c)
  have hlen : (u ++ v).length = u.length + v.length := List.length_append
  obtain ⟨rs, rs1, z, z1, a1, a2, a3, a4, a5, a6, a7⟩ := cut_run hnpos hf ha (R := R) (sm := sm) (xs := xs) huv hu (d := 0) (e := (u ++ v).length) (e' := u.length)
    (Nat.le_refl _) (Nat.le_refl _) (by omega)
    (fun p k hk => by
      have := text_take (inp := u ++ v) (p := p) hk
      rw [List.take_left] at this
      exact this.symm)
    (fun p k h1 h2 h3 x hx hm => hcut p k h1 (by omega) (by omega) x hx hm)
    u.length (.mk' tr.npos 0 (u ++ v).length) (.mk' tr.npos 0 u.length) (h _) rfl rfl rfl (Nat.zero_le _) rfl (by simp [Results.mk'])
  obtain ⟨rt, rs2, y, z2, b1, b2, b3, b4, b5, b6, b7⟩ := cut_run hnpos hf ha (R := R) (sm := sm) (xs := xs) huv hv (d := u.length) (e := (u ++ v).length) (e' := v.length)
    (Nat.le_refl _) (Nat.le_refl _) (by omega)
    (fun p k hk => by
      unfold text
      rw [show p + u.length = u.length + p by omega, ← List.drop_drop, List.drop_left, show k + u.length - (u.length + p) = k - p by omega])
    (fun p k h1 h2 h3 => by omega)
    v.length z (.mk' tr.npos 0 v.length) (plain_congr (h 0) a6) a4 rfl (by rw [a5]; simp [Results.mk']) (Nat.zero_le _) a6.symm (by simp [Results.mk'])
  refine ⟨rs ++ rt, rs1, rs2, y, z1, z2, Upto.append a1 (by rw [hlen, Nat.add_comm]; exact b1) a7 (by omega), a2, b2, ?_⟩
  rw [List.map_append, a3, b3]

/-- The hypotheses are met by the rules `a` and `b` and any two texts of `a`s, `b`s and others. -/
example {u v : List Nat} (hu : ∀ c ∈ u, c < 256) (hv : ∀ c ∈ v, c < 256) : ∃ rs rs1 rs2 z z1 z2,
    Lexer.Upto ⟨⟨false, false, false, false, true⟩, 65535, 1, Ex.machine (Ex.Order.one Ex.Order.xsAb), u ++ v⟩ (u ++ v).length (.mk' 65535 0 (u ++ v).length) rs z ∧
    Lexer.Upto ⟨⟨false, false, false, false, true⟩, 65535, 1, Ex.machine (Ex.Order.one Ex.Order.xsAb), u⟩ u.length (.mk' 65535 0 u.length) rs1 z1 ∧
    Lexer.Upto ⟨⟨false, false, false, false, true⟩, 65535, 1, Ex.machine (Ex.Order.one Ex.Order.xsAb), v⟩ v.length (.mk' 65535 0 v.length) rs2 z2 ∧
    rs.map (tokenAt 0) = rs1.map (tokenAt 0) ++ rs2.map (tokenAt u.length) := by
  have hC : ∀ (c id : Nat) w, RMatches (Ex.chr c id).2 w → w.length = 1 := by
    rintro c id w ⟨d, hd, rfl⟩
    rfl
  refine C73_cut (tr := Ex.tr) (R := Ex.Order.one Ex.Order.xsAb) (xs := Ex.Order.xsAb) (by decide) (f := ⟨false, false, false, false, true⟩) rfl rfl hu hv
    (fun e => Ex.Order.plain rfl ?_ ?_ ?_ (by decide) (by decide) (by decide +kernel) e) (fun p k h1 h2 h3 => ?_)
  all_goals simp only [Ex.Order.xsAb, NoEmpty, List.map_cons, List.map_nil, List.mem_cons, List.not_mem_nil, or_false, forall_eq_or_imp, forall_eq]
  · exact ⟨Ex.one_chr (by decide) .., Ex.one_chr (by decide) ..⟩
  · exact ⟨rfl, rfl⟩
  · exact ⟨fun h => (by cases hC _ _ _ h), fun h => (by cases hC _ _ _ h)⟩
  · have hlen : (text (u ++ v) p k).length = k - p := by
      simp only [text, List.length_map, List.length_take, List.length_drop, List.length_append]
      omega
    exact ⟨fun h => by have := hC _ _ _ h; omega, fun h => by have := hC _ _ _ h; omega⟩

end Lexertl.Props
