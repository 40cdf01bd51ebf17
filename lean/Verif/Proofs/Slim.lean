import Verif.Model.Generator

/-
The generator without its tables: which sets of positions are reached and which rules are
found.  Cheap enough to be run by the kernel for large rule sets, so that `build` is known to
return (`temp_ok`).
-/
namespace Lexertl.Slim

/-- If `y` returns, `x` returns a related value, or has undefined behaviour or no fuel. -/
def Sim {α β : Type} (x : M α) (y : M β) (R : α → β → Prop) : Prop :=
  ∀ b, y = .ok b → (∃ a, x = .ok a ∧ R a b) ∨ (∃ m, x = .error (.ub m)) ∨ x = .error .fuel

theorem Sim.refl {α : Type} (x : M α) : Sim x x Eq := fun b h => .inl ⟨b, h, rfl⟩

theorem Sim.pure {α β : Type} {R : α → β → Prop} {a : α} {b : β} (h : R a b) : Sim (.ok a) (.ok b) R := fun b' h' => by
  cases h'
  exact .inl ⟨a, rfl, h⟩

theorem Sim.fail {α β : Type} {R : α → β → Prop} {x : M α} {e : Fault} : Sim x (.error e : M β) R := fun b' h' => by cases h'

theorem Sim.bind {α β γ δ : Type} {R : α → β → Prop} {R' : γ → δ → Prop} {x : M α} {y : M β} {f : α → M γ} {g : β → M δ} (h : Sim x y R)
    (h' : ∀ a b, R a b → Sim (f a) (g b) R') : Sim (x >>= f) (y >>= g) R' := by
  intro d hd
  cases y with
  | error e => cases hd
  | ok b =>
    rcases h b rfl with ⟨a, rfl, hR⟩ | ⟨m, rfl⟩ | rfl
    · exact h' a b hR d hd
    · exact .inr (.inl ⟨m, rfl⟩)
    · exact .inr (.inr rfl)

/-- As `Sim.bind`, where `y` has nothing to do. -/
theorem Sim.bindl {α γ δ : Type} {R' : γ → δ → Prop} {x : M α} {f : α → M γ} {y : M δ}
    (h : (∃ a, x = .ok a ∧ Sim (f a) y R') ∨ (∃ m, x = .error (.ub m)) ∨ x = .error .fuel) : Sim (x >>= f) y R' := by
  intro d hd
  rcases h with ⟨a, rfl, h⟩ | ⟨m, rfl⟩ | rfl
  · exact h d hd
  · exact .inr (.inl ⟨m, rfl⟩)
  · exact .inr (.inr rfl)

structure S where
  seen : List (List Nat)
  hashes : List Nat
  used : List Nat

def of (D : DState) : S := ⟨D.seen, D.hashes, D.used⟩

def closure (E : DfaEnv) (s : S) (fp : List Nat) : M S :=
  match fp with
  | [] => .ok s
  | _ => do
    let e ← firstEnd E.heap fp
    let used := match e with
      | some (.fin _ _ u ..) => if E.allowSuppressed then s.used else setInsert u s.used
      | _ => s.used
    let v := dedup [] fp
    let hash := (v.map E.addr).sum % 2 ^ 64
    match findSeen hash v s.hashes s.seen with
    | some _ => .ok { s with used := used }
    | none => .ok { used := used, seen := s.seen ++ [v], hashes := s.hashes ++ [hash] }

def buildState (E : DfaEnv) : List Equivset → S → M S
  | [], s => .ok s
  | e :: es, s => do
    let fp ← pruneEolClashes E.tr E.heap E.mapping E.cr E.nl e.followpos.length e.followpos
    let s ← closure E s fp
    if E.tr.eolToken ∈ e.indexVector then .error .fuel else buildState E es s

def buildStates (E : DfaEnv) : Nat → Nat → S → M S
  | 0, _, _ => .error .fuel
  | fuel + 1, index, s =>
    match s.seen[index]? with
    | none => .ok s
    | some v => do
      let es ← buildEquivList E.tr E.heap E.mapping v
      buildStates E fuel (index + 1) (← buildState E es s)

def dfa (tr : Traits) (sup : Bool) (addr : Nat → Nat) (heap : Heap) (charsets : CharsetMap) (cr nl : Nat) (root : Tree) (used : List Nat) : M S :=
  match partitionCharsets charsets with
  | none => .error .fuel
  | some classes =>
    match buildSetMapping 0 classes (List.replicate charsets.length []) with
    | none => .error .fuel
    | some mapping =>
      if classes.length + ixTransitions > tr.npos ∨ cr ≠ tr.npos ∨ nl ≠ tr.npos then .error .fuel
      else do
        let E : DfaEnv := ⟨tr, heap, addr, mapping, cr, nl, classes.length + ixTransitions, sup⟩
        let s ← closure E ⟨[], [], used⟩ root.firstpos
        buildStates E (2 ^ heap.length + 1) 0 s

/-- Heap, rules found, rules counted. -/
abbrev B := Heap × List Nat × Nat

def loop (tr : Traits) (addr : Nat → Nat) (zero sup : Bool) : List (List Rule) → List Nat → B → M B
  | [], _, b => .ok b
  | rs :: rss, feats, b =>
    if rs = [] then .error .fuel
    else do
      let t ← buildTree tr (hasBit (feats.headD 0) 1) rs b.1 b.2.2
      checkZeroLen zero t.1.heap t.2.1
      let out ← dfa tr sup addr t.1.heap t.1.charsets t.1.crId t.1.nlId t.2.1 b.2.1
      if out.seen.length + 1 ≥ tr.npos then .error .fuel
      else loop tr addr zero sup rss feats.tail (t.1.heap, out.used, t.2.2)

/-! ### Simulation -/

structure Like (n : List Nat) (D : DState) (s : S) : Prop where
  same : of D = s
  len : D.rows.length = D.seen.length + 1
  eol : D.eolSet = n

theorem closure_sim {E : DfaEnv} {n : List Nat} {D : DState} {s : S} (h : Like n D s) (fp : List Nat) :
    Sim (Lexertl.closure E D fp) (closure E s fp) (fun a b => Like n a.2 b) := by
  obtain ⟨rfl, h2, h3⟩ := h
  unfold Lexertl.closure closure
  cases fp with
  | nil => exact .pure ⟨rfl, h2, h3⟩
  | cons f fp =>
    dsimp only
    refine Sim.bind (.refl _) fun e e' he => ?_
    subst he
    dsimp only [of]
    cases findSeen _ _ D.hashes D.seen with
    | some i => exact .pure ⟨rfl, h2, h3⟩
    | none => exact .pure ⟨rfl, by simp [h2], h3⟩

theorem setCell_out (rows : List Row) (r c v : Nat) : (∃ x, setCell rows r c v = .ok x ∧ x.length = rows.length) ∨ ∃ m, setCell rows r c v = .error (.ub m) := by
  unfold setCell
  split
  · exact .inr ⟨_, rfl⟩
  · split
    · exact .inl ⟨_, rfl, by simp⟩
    · exact .inr ⟨_, rfl⟩

theorem getCell_out (rows : List Row) (r c : Nat) : (∃ x, getCell rows r c = .ok x) ∨ ∃ m, getCell rows r c = .error (.ub m) := by
  unfold getCell
  split
  · exact .inr ⟨_, rfl⟩
  · split
    · exact .inl ⟨_, rfl⟩
    · exact .inr ⟨_, rfl⟩

theorem setTransitions_out {E : DfaEnv} {t i : Nat} {n : List Nat} {s : S} : ∀ (is : List Nat) {D : DState}, Like n D s → E.tr.eolToken ∉ is →
    (∃ D', setTransitions E t i is D = .ok D' ∧ Like n D' s) ∨ (∃ m, setTransitions E t i is D = .error (.ub m)) ∨ setTransitions E t i is D = .error .fuel
  | [], D, h, _ => .inl ⟨D, rfl, h⟩
  | j :: is, D, h, hn => by
    have hn' : E.tr.eolToken ∉ is := fun h => hn (List.mem_cons_of_mem _ h)
    have hj : j ≠ E.tr.eolToken := fun h => hn (h ▸ List.mem_cons_self ..)
    obtain ⟨h1, h2, h3⟩ := h
    unfold setTransitions
    split
    · rcases setCell_out D.rows 0 0 t with ⟨x, hx, hl⟩ | ⟨m, hx⟩
      · rw [hx]
        exact setTransitions_out is (D := { D with rows := x }) ⟨h1, by rw [← h2]; exact hl, h3⟩ hn'
      · rw [hx]
        exact .inr (.inl ⟨m, rfl⟩)
    · rcases setCell_out D.rows (i + 1) (j + ixTransitions) t with ⟨x, hx, hl⟩ | ⟨m, hx⟩
      · rw [hx]
        exact setTransitions_out is (D := { D with rows := x }) ⟨h1, by rw [← h2]; exact hl, h3⟩ hn'
      · rw [hx]
        exact .inr (.inl ⟨m, rfl⟩)

theorem buildState_sim {E : DfaEnv} {i : Nat} {n : List Nat} : ∀ (es : List Equivset) {D : DState} {s : S}, Like n D s →
    Sim (Lexertl.buildState E i es D) (buildState E es s) (Like n)
  | [], D, s, h => .pure h
  | e :: es, D, s, h => by
    unfold Lexertl.buildState buildState
    refine Sim.bind (.refl _) fun fp fp' hfp => ?_
    subst hfp
    refine Sim.bind (closure_sim h fp) fun a s' ha => ?_
    obtain ⟨t, D'⟩ := a
    dsimp only at ha ⊢
    by_cases hn : E.tr.eolToken ∈ e.indexVector
    · rw [if_pos hn]
      exact .fail
    · rw [if_neg hn]
      cases t with
      | none => exact buildState_sim es ha
      | some t =>
        dsimp only
        refine Sim.bindl ?_
        rcases getCell_out D'.rows (i + 1) 0 with ⟨x, hx⟩ | ⟨m, hx⟩
        · refine .inl ⟨x, hx, ?_⟩
          split
          · exact buildState_sim es ha
          · refine Sim.bindl ?_
            rcases setTransitions_out (t := t) (i := i) e.indexVector ha hn with ⟨D'', h1, h2⟩ | h1
            · exact .inl ⟨D'', h1, buildState_sim es h2⟩
            · exact .inr h1
        · exact .inr (.inl ⟨m, hx⟩)

theorem buildStates_sim {E : DfaEnv} {n : List Nat} : ∀ (fuel i : Nat) {D : DState} {s : S}, Like n D s →
    Sim (Lexertl.buildStates E fuel i D) (buildStates E fuel i s) (Like n)
  | 0, _, _, _, _ => .fail
  | fuel + 1, i, D, s, h => by
    unfold Lexertl.buildStates buildStates
    have : s.seen = D.seen := by rw [← h.same]; rfl
    rw [this]
    cases D.seen[i]? with
    | none => exact .pure h
    | some v =>
      refine Sim.bind (.refl _) fun es es' he => ?_
      subst he
      exact Sim.bind (buildState_sim es h) fun D' s' h' => buildStates_sim fuel (i + 1) h'

theorem dfa_sim (tr : Traits) (sup : Bool) (addr : Nat → Nat) (heap : Heap) (charsets : CharsetMap) (cr nl : Nat) (root : Tree) (used : List Nat) :
    Sim (buildDfa tr true sup addr heap charsets cr nl root used) (dfa tr sup addr heap charsets cr nl root used)
      (fun out s => out.rows.length = s.seen.length + 1 ∧ out.used = s.used) := by
  unfold dfa
  split
  · exact .fail
  · rename_i classes hc
    split
    · exact .fail
    · rename_i mapping hm
      split
      · exact .fail
      · rename_i hn
        have h1 : ¬ classes.length + ixTransitions > tr.npos := fun h => hn (.inl h)
        have h2 : cr = tr.npos := Classical.byContradiction fun h => hn (.inr (.inl h))
        have h3 : nl = tr.npos := Classical.byContradiction fun h => hn (.inr (.inr h))
        unfold buildDfa
        refine Sim.bindl ?_
        unfold prepareDfa
        rw [hc]
        dsimp only
        rw [hm]
        simp only [if_true]
        cases buildLookup 0 classes (List.replicate 256 ixDead) with
        | none => exact .inr (.inl ⟨_, rfl⟩)
        | some lk =>
          left
          refine ⟨(classes, mapping, lk, cr, nl, tr.npos), ?_, ?_⟩
          · dsimp only
            rw [if_neg (by simp [h2]), if_neg (by simp [h3])]
            simp [bind, Except.bind, h2, h3]
          · dsimp only
            rw [if_pos (show cr = tr.npos ∧ nl = tr.npos from ⟨h2, h3⟩), Nat.add_zero, if_neg h1]
            refine Sim.bind (closure_sim (n := []) ⟨rfl, rfl, rfl⟩ _) fun a s ha => ?_
            obtain ⟨t, D⟩ := a
            dsimp only
            rw [← bind_pure (buildStates _ _ _ s)]
            refine Sim.bind (buildStates_sim _ 0 ha) fun D' s' h' => ?_
            obtain ⟨g1, g2, g3⟩ := h'
            rw [g3, ← g1]
            have : (if tr.compressed = true then fixClashesComp tr.char24 (classes.length + ixTransitions) cr nl tr.npos [] 0 D'.rows
                else List.foldlM (fixClash cr nl) D'.rows []) = .ok D'.rows := by
              split <;> rfl
            rw [this]
            exact .pure ⟨g2, rfl⟩

theorem loop_sim (tr : Traits) (addr : Nat → Nat) (R : Rules) : ∀ (rss : List (List Rule)) (feats : List Nat) (D : BuildState) (b : B),
    D.heap = b.1 → D.used = b.2.1 → D.uniqueId = b.2.2 →
    Sim (buildLoop tr true addr R rss feats D) (loop tr addr R.matchZeroLen R.allowSuppressed rss feats b)
      (fun D b => D.heap = b.1 ∧ D.used = b.2.1 ∧ D.uniqueId = b.2.2)
  | [], _, _, _, h1, h2, h3 => .pure ⟨h1, h2, h3⟩
  | rs :: rss, feats, D, b, h1, h2, h3 => by
    unfold buildLoop loop
    split
    · exact .fail
    · rw [h1, h2, h3]
      refine Sim.bind (.refl _) fun t t' ht => ?_
      subst ht
      obtain ⟨p, root, uid⟩ := t
      dsimp only
      refine Sim.bind (.refl _) fun _ _ _ => ?_
      refine Sim.bind (dfa_sim tr _ _ _ _ _ _ _ _) fun out s hs => ?_
      rw [hs.1]
      split
      · exact .fail
      · exact loop_sim tr addr R rss feats.tail _ _ rfl hs.2 rfl

/-- If the slim loop returns and all rules are found, `build` does not throw. -/
theorem temp_ok {tr : Traits} {addr : Nat → Nat} {R : Rules} {b : B} (h : loop tr addr R.matchZeroLen R.allowSuppressed R.states R.features ([], [], 0) = .ok b)
    (hs : checkSuppressed R.allowSuppressed b.2.2 b.2.1 = .ok ()) :
    (∃ sm, buildTemp tr addr R = .ok sm) ∨ (∃ m, buildTemp tr addr R = .error (.ub m)) ∨ buildTemp tr addr R = .error .fuel := by
  unfold buildTemp
  rcases loop_sim tr addr R R.states R.features ⟨[], [], 0, []⟩ ([], [], 0) rfl rfl rfl b h with ⟨D, h1, h2, h3, h4⟩ | ⟨m, h1⟩ | h1
  · rw [h1]
    left
    dsimp only [bind, Except.bind]
    rw [h3, h4, hs]
    exact ⟨_, rfl⟩
  · rw [h1]
    exact .inr (.inl ⟨m, rfl⟩)
  · rw [h1]
    exact .inr (.inr rfl)

/-- The loop in parts. -/
theorem loop_append {tr : Traits} {addr : Nat → Nat} {zero sup : Bool} : ∀ (rss rss' : List (List Rule)) (feats : List Nat) (b : B),
    loop tr addr zero sup (rss ++ rss') feats b = loop tr addr zero sup rss feats b >>= loop tr addr zero sup rss' (feats.drop rss.length)
  | [], _, _, _ => rfl
  | rs :: rss, rss', feats, b => by
    rw [List.cons_append]
    unfold loop
    split
    · rfl
    · simp only [bind_assoc]
      congr 1
      funext t
      congr 1
      funext _
      congr 1
      funext out
      split
      · rfl
      · rw [loop_append rss rss']
        simp

theorem tree_append {tr : Traits} {bol : Bool} : ∀ (rs rs' : List Rule) (p : PState) (root : Tree) (uid : Nat),
    buildTreeRest tr bol (rs ++ rs') p root uid = buildTreeRest tr bol rs p root uid >>= fun x => buildTreeRest tr bol rs' x.1 x.2.1 x.2.2
  | [], _, _, _, _ => rfl
  | r :: rs, rs', p, root, uid => by
    rw [List.cons_append, buildTreeRest, buildTreeRest]
    simp only [bind_assoc]
    congr 1
    funext x
    exact tree_append rs rs' ..

end Lexertl.Slim
