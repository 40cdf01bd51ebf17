import Verif.Proofs.Prune

/-
The tokeniser makes a `^` token only of the first character of a regex and a `$` token
only of the last one; and taking a regex apart at `|` leaves no non-greedy operator out.
-/
namespace Lexertl
open Spec

/-- What holds of a result. -/
def Post {α : Type} (Q : α → Prop) (x : M α) : Prop := ∀ a, x = .ok a → Q a

theorem Post.bind {α β : Type} {P : α → Prop} {Q : β → Prop} {x : M α} {f : α → M β} (h : Post P x)
    (hf : ∀ a, P a → Post Q (f a)) : Post Q (x >>= f) := by
  intro b hb
  cases x with
  | error e => cases hb
  | ok a => exact hf a (h a rfl) b hb

theorem Post.any {α β : Type} {Q : β → Prop} {x : M α} {f : α → M β} (hf : ∀ a, Post Q (f a)) : Post Q (x >>= f) :=
  Post.bind (P := fun _ => True) (fun _ _ => trivial) fun a _ => hf a

theorem Post.ok {α : Type} {Q : α → Prop} {a : α} (h : Q a) : Post Q (.ok a) := by
  intro b hb; cases hb; exact h

theorem Post.error {α : Type} {Q : α → Prop} {e : Fault} : Post Q (.error e : M α) := by
  intro b hb; cases hb

theorem Post.throw {α : Type} {Q : α → Prop} {m : String} : Post Q (throw_ m : M α) := Post.error

theorem Spec.Total.post {α : Type} {Q : α → Prop} {x : M α} (h : Total Q x) : Post Q x := by
  intro a ha; rw [ha] at h; exact h

theorem Post.mono {α : Type} {P Q : α → Prop} {x : M α} (h : Post P x) (hpq : ∀ a, P a → Q a) : Post Q x :=
  fun a ha => hpq a (h a ha)

theorem post_if {α : Type} {Q : α → Prop} {c : Prop} [Decidable c] {x y : M α} (h1 : c → Post Q x) (h2 : ¬ c → Post Q y) :
    Post Q (if c then x else y) := by
  split
  · exact h1 ‹_›
  · exact h2 ‹_›

/-- Anchors in what `next` returns. -/
structure NextAnchor (s : TkState) (x : Lexeme × TkState) : Prop where
  len : x.2.len = s.len
  bol : ∀ t, x.1 = .tok t → t.type = .bol → s.len ≤ s.rest.length
  eol : ∀ t, x.1 = .tok t → t.type = .eol → x.2.rest = []
  stop : s.rest = [] → x.1 = .tok endTok

theorem lazyTok_type (a b : TT) (e cs : List Nat) : (lazyTok a b e cs).1.type = a ∨ (lazyTok a b e cs).1.type = b := by
  unfold lazyTok
  split
  · exact .inr rfl
  · exact .inl rfl

theorem repeatN_type (cs : List Nat) : Post (fun x => isPostfix x.1.type = true) (repeatN cs) := by
  have lz : ∀ a b e r, isPostfix a = true → isPostfix b = true →
      Post (fun x : Tok × List Nat => isPostfix x.1.type = true) (.ok (lazyTok a b e r)) := by
    intro a b e r h1 h2
    refine Post.ok ?_
    rcases lazyTok_type a b e r with h | h <;> rw [h] <;> assumption
  unfold repeatN
  generalize number 0 cs = q
  obtain ⟨m, d, cs⟩ := q
  dsimp only
  repeat' split
  all_goals first
    | exact Post.throw
    | exact lz _ _ _ _ rfl rfl

theorem macroTok_type (cs : List Nat) : Post (fun x => x.1.type = .macro_) (macroTok cs) := by
  unfold macroTok
  cases cs with
  | nil => exact Post.throw
  | cons c cs =>
    dsimp only
    split
    · exact Post.throw
    · generalize macroName cs = q
      obtain ⟨name, cs⟩ := q
      dsimp only
      split
      · exact Post.throw
      · split
        · exact Post.throw
        · exact Post.ok rfl

theorem openCurly_type (lhs : TT) (cs : List Nat) :
    Post (fun x => ∀ t, x.1 = .tok t → isPostfix t.type = true ∨ t.type = .macro_) (openCurly lhs cs) := by
  unfold openCurly
  cases cs with
  | nil => exact Post.throw
  | cons c cs =>
    dsimp only
    refine post_if (fun _ => ?_) fun _ => post_if (fun _ => ?_) fun _ => ?_
    · refine post_if (fun _ => Post.throw) fun _ => ?_
      cases cs with
      | nil => exact Post.throw
      | cons d cs =>
        refine post_if (fun _ => Post.throw) fun _ => Post.ok ?_
        intro t ht; cases ht
    · refine (repeatN_type _).bind fun x hx => Post.ok ?_
      intro t ht
      cases ht
      exact .inl hx
    · refine (macroTok_type _).bind fun x hx => Post.ok ?_
      intro t ht
      cases ht
      exact .inr hx

theorem isPostfix_ne {t : TT} (h : isPostfix t = true) : t ≠ .bol ∧ t ≠ .eol ∧ t ≠ .or_ ∧ t ≠ .openparen ∧ t ≠ .closeparen := by
  cases t <;> simp [isPostfix] at h ⊢

theorem next_anchor (E : TokEnv) (lhs : TT) (s : TkState) : Post (NextAnchor s) (s.next E lhs) := by
  unfold TkState.next
  refine (leadIn_total s.flags (s.rest.length + 2) s.inString s.rest (by omega)).post.bind fun x hx => ?_
  obtain ⟨b, cs⟩ := x
  dsimp only at hx ⊢
  cases cs with
  | nil =>
    dsimp only
    refine post_if (fun _ => Post.throw) fun _ => post_if (fun _ => Post.throw) fun _ => Post.ok ?_
    refine ⟨rfl, ?_, ?_, fun _ => rfl⟩ <;> intro t ht <;> cases ht <;> simp
  | cons c cs =>
    have hlen : cs.length + 1 ≤ s.rest.length := by have := hx.length_le; simpa using this
    have hne : s.rest ≠ [] := by intro h; rw [h] at hlen; simp at hlen
    dsimp only
    -- tokens that are no anchors
    have fin : ∀ (t : Tok) (s' : TkState), s'.len = s.len → t.type ≠ .bol → t.type ≠ .eol →
        Post (NextAnchor s) (.ok (.tok t, s')) := by
      intro t s' hl h1 h2
      refine Post.ok ⟨hl, ?_, ?_, fun h => (hne h).elim⟩
      · intro u hu; cases hu; intro h; exact (h1 h).elim
      · intro u hu; cases hu; intro h; exact (h2 h).elim
    have finLazy : ∀ (a b : TT) (s' : List Nat → TkState), (∀ r, (s' r).len = s.len) → isPostfix a = true → isPostfix b = true →
        Post (NextAnchor s) (.ok (.tok (lazyTok a b [] cs).1, s' (lazyTok a b [] cs).2)) := by
      intro a b s' hs h1 h2
      have ht := lazyTok_type a b [] cs
      have : isPostfix (lazyTok a b [] cs).1.type = true := by rcases ht with h | h <;> rw [h] <;> assumption
      exact fin _ _ (hs _) (isPostfix_ne this).1 (isPostfix_ne this).2.1
    refine post_if (fun _ => ?_) fun _ => ?_
    · exact Post.any fun x => fin _ _ rfl (by simp) (by simp)
    refine post_if (fun _ => fin _ _ rfl (by simp) (by simp)) fun _ => ?_
    refine post_if (fun _ => ?_) fun _ => ?_
    · split
      · exact Post.any fun x => fin _ _ rfl (by simp) (by simp)
      · exact fin _ _ rfl (by simp) (by simp)
    refine post_if (fun _ => ?_) fun _ => ?_
    · refine post_if (fun _ => Post.throw) fun _ => ?_
      split
      · exact fin _ _ rfl (by simp) (by simp)
      · exact fin _ _ rfl (by simp) (by simp)
    refine post_if (fun _ => ?_) fun _ => ?_
    · exact finLazy .opt .aopt (fun r => { s with inString := b, rest := r }) (fun _ => rfl) rfl rfl
    refine post_if (fun _ => ?_) fun _ => ?_
    · exact finLazy .zeroormore .azeroormore (fun r => { s with inString := b, rest := r }) (fun _ => rfl) rfl rfl
    refine post_if (fun _ => ?_) fun _ => ?_
    · exact finLazy .oneormore .aoneormore (fun r => { s with inString := b, rest := r }) (fun _ => rfl) rfl rfl
    refine post_if (fun _ => ?_) fun _ => ?_
    · refine (openCurly_type lhs cs).bind fun x hx => Post.ok ⟨rfl, ?_, ?_, fun h => (hne h).elim⟩
      · intro t ht h
        rcases hx t ht with h' | h'
        · exact ((isPostfix_ne h').1 h).elim
        · rw [h'] at h; cases h
      · intro t ht h
        rcases hx t ht with h' | h'
        · exact ((isPostfix_ne h').2.1 h).elim
        · rw [h'] at h; cases h
    refine post_if (fun _ => fin _ _ rfl (by simp) (by simp)) fun _ => ?_
    refine post_if (fun _ => ?_) fun _ => ?_
    · refine post_if (fun he => ?_) fun _ => fin _ _ rfl (by simp) (by simp)
      refine Post.ok ⟨rfl, ?_, ?_, fun h => (hne h).elim⟩
      · intro t _ _
        have he : cs.length + 1 = s.len := he
        omega
      · intro t ht h; cases ht; cases h
    refine post_if (fun _ => ?_) fun _ => ?_
    · refine post_if (fun he => ?_) fun _ => fin _ _ rfl (by simp) (by simp)
      refine Post.ok ⟨rfl, ?_, ?_, fun h => (hne h).elim⟩
      · intro t ht h; cases ht; cases h
      · intro t _ _
        exact he
    refine post_if (fun _ => fin _ _ rfl (by simp) (by simp)) fun _ => ?_
    refine post_if (fun _ => ?_) fun _ => ?_
    · exact Post.any fun x => fin _ _ rfl (by simp) (by simp)
    exact post_if (fun _ => Post.throw) fun _ => fin _ _ rfl (by simp) (by simp)

/-! ### `tokenise` -/

/-- No token of this type. -/
def NoType (k : TT) (ts : List Tok) : Prop := ∀ t ∈ ts, t.type ≠ k

theorem NoType.append {k : TT} {a b : List Tok} (h : NoType k a) (h' : NoType k b) : NoType k (a ++ b) := by
  intro t ht
  rcases List.mem_append.1 ht with ht | ht
  · exact h t ht
  · exact h' t ht

theorem NoType.sub {k : TT} {a b : List Tok} (h : NoType k a) (hs : ∀ t ∈ b, t ∈ a) : NoType k b := fun t ht => h t (hs t ht)

/-- The tokens between `BEGIN` and `END`: `^` only first, `$` only last. -/
structure Anch (ts : List Tok) : Prop where
  bol : NoType .bol ts.tail
  eol : NoType .eol ts.dropLast
  noEnd : NoType .end_ ts

/-- A whole regex. -/
def WholeAnch (toks : List Tok) : Prop := ∃ ts, toks = beginTok :: ts ++ [endTok] ∧ Anch ts

/-- What a macro stands for. -/
structure BodyAnch (atStart atEnd : Bool) (ts : List Tok) : Prop where
  anch : Anch ts
  start : atStart = false → NoType .bol ts
  stop : atEnd = false → NoType .eol ts

theorem noType_single {k : TT} {t : Tok} (h : t.type ≠ k) : NoType k [t] := by
  intro u hu; rw [List.mem_singleton.1 hu]; exact h

theorem noType_nil {k : TT} : NoType k [] := by intro u hu; cases hu

theorem NoType.cons {k : TT} {t : Tok} {ts : List Tok} (h : t.type ≠ k) (h' : NoType k ts) : NoType k (t :: ts) :=
  (noType_single h).append h'

theorem expandMacro_anch {m : List Tok} (hm : WholeAnch m) (a b : Bool) : Post (BodyAnch a b) (expandMacro m a b) := by
  obtain ⟨ts, rfl, h⟩ := hm
  unfold expandMacro
  have e1 : ∃ f, (beginTok :: ts ++ [endTok])[1]? = some f ∧ (f.type ≠ .bol ∧ NoType .bol ts ∨ f.type = .bol ∧ ∃ us, ts = f :: us ∧ NoType .bol us) := by
    cases ts with
    | nil => exact ⟨endTok, rfl, .inl ⟨by simp [endTok], noType_nil⟩⟩
    | cons t us =>
      refine ⟨t, rfl, ?_⟩
      have := h.bol
      by_cases ht : t.type = .bol
      · exact .inr ⟨ht, us, rfl, this⟩
      · exact .inl ⟨ht, NoType.cons ht this⟩
  have e2 : ∃ f, (beginTok :: ts ++ [endTok])[(beginTok :: ts ++ [endTok]).length - 2]? = some f ∧
      (f.type ≠ .eol ∧ NoType .eol ts ∨ f.type = .eol ∧ ∃ us, ts = us ++ [f] ∧ NoType .eol us) := by
    rcases nil_or_snoc ts with rfl | ⟨us, t, rfl⟩
    · exact ⟨beginTok, rfl, .inl ⟨by simp [beginTok], noType_nil⟩⟩
    · refine ⟨t, by simp, ?_⟩
      have := h.eol
      rw [List.dropLast_concat] at this
      by_cases ht : t.type = .eol
      · exact .inr ⟨ht, us, rfl, this⟩
      · exact .inl ⟨ht, this.append (noType_single ht)⟩
  obtain ⟨f, e1, hf⟩ := e1
  obtain ⟨s, e2, hs⟩ := e2
  rw [e1, e2]
  dsimp only
  refine Post.ok ?_
  have hlen : (beginTok :: ts ++ [endTok]).length = ts.length + 2 := by simp
  rw [hlen]
  generalize hcar : (!(a && f.type == TT.bol) && f.type == TT.bol) = caret
  generalize hdol : (!(b && s.type == TT.eol) && s.type == TT.eol) = dollar
  -- the tokens of the macro, the anchors replaced
  have hmid : List.drop (if caret = true then 2 else 1) (List.take (ts.length + 2 - if dollar = true then 2 else 1)
      (beginTok :: ts ++ [endTok])) = List.drop (if caret = true then 1 else 0) (List.take (ts.length - if dollar = true then 1 else 0) ts) := by
    have ht : List.take (ts.length + 2 - if dollar = true then 2 else 1) (beginTok :: ts ++ [endTok]) =
        beginTok :: List.take (ts.length - if dollar = true then 1 else 0) ts := by
      cases dollar with
      | false =>
        simp only [Bool.false_eq_true, if_false, Nat.sub_zero, List.take_length]
        rw [show ts.length + 2 - 1 = (beginTok :: ts).length by simp, List.take_left]
      | true =>
        simp only [if_true]
        rcases nil_or_snoc ts with rfl | ⟨us, t, rfl⟩
        · rcases hs with ⟨h1, _⟩ | ⟨_, us, h1, _⟩
          · simp [h1] at hdol
          · simp at h1
        · simp
    rw [ht]
    cases caret <;> simp
  rw [hmid]
  generalize hbody : ((if caret = true then [(⟨.charset, [], [(94, 94)]⟩ : Tok)] else []) ++
      List.drop (if caret = true then 1 else 0) (List.take (ts.length - if dollar = true then 1 else 0) ts) ++
      if dollar = true then [(⟨.charset, [], [(36, 36)]⟩ : Tok)] else []) = body
  have hin : ∀ t ∈ List.drop (if caret = true then 1 else 0) (List.take (ts.length - if dollar = true then 1 else 0) ts), t ∈ ts :=
    fun t ht => List.mem_of_mem_take (List.mem_of_mem_drop ht)
  have hnd : NoType .end_ body := by
    rw [← hbody]
    refine NoType.append (NoType.append ?_ (h.noEnd.sub hin)) ?_
    · split
      · exact noType_single (by simp)
      · exact noType_nil
    · split
      · exact noType_single (by simp)
      · exact noType_nil
  -- `^`
  have hb : NoType .bol body ∨ a = true ∧ NoType .bol body.tail ∧ f.type = .bol := by
    rcases hf with ⟨hf, hn⟩ | ⟨hf, us, hus, hn⟩
    · left
      rw [← hbody]
      refine NoType.append (NoType.append ?_ (hn.sub hin)) ?_
      · split
        · exact noType_single (by simp)
        · exact noType_nil
      · split
        · exact noType_single (by simp)
        · exact noType_nil
    · cases a with
      | false =>
        left
        simp [hf] at hcar
        subst hcar
        rw [← hbody]
        refine NoType.append (NoType.append (noType_single (by simp)) ?_) ?_
        · refine hn.sub fun t ht => ?_
          rw [if_pos rfl, hus, List.drop_take] at ht
          exact List.mem_of_mem_take ht
        · split
          · exact noType_single (by simp)
          · exact noType_nil
      | true =>
        right
        simp [hf] at hcar
        subst hcar
        refine ⟨rfl, ?_, hf⟩
        rw [← hbody]
        simp only [Bool.false_eq_true, if_false, List.nil_append, List.drop_zero]
        have ht2 : NoType .bol (List.take (ts.length - if dollar = true then 1 else 0) ts).tail := by
          refine hn.sub fun t ht => ?_
          rw [hus, ← List.drop_one, List.drop_take] at ht
          exact List.mem_of_mem_take ht
        cases hp : List.take (ts.length - if dollar = true then 1 else 0) ts with
        | nil =>
          split
          · exact noType_nil
          · exact noType_nil
        | cons x xs =>
          rw [hp] at ht2
          refine NoType.append ht2 ?_
          split
          · exact noType_single (by simp)
          · exact noType_nil
  -- `$`
  have hd : NoType .eol body ∨ b = true ∧ NoType .eol body.dropLast ∧ s.type = .eol := by
    have hpre : NoType .eol (if caret = true then [(⟨.charset, [], [(94, 94)]⟩ : Tok)] else []) := by
      split
      · exact noType_single (by simp)
      · exact noType_nil
    rcases hs with ⟨hs, hn⟩ | ⟨hs, us, hus, hn⟩
    · left
      rw [← hbody]
      refine NoType.append (NoType.append hpre (hn.sub hin)) ?_
      split
      · exact noType_single (by simp)
      · exact noType_nil
    · cases b with
      | false =>
        left
        simp [hs] at hdol
        subst hdol
        rw [← hbody]
        refine NoType.append (NoType.append hpre ?_) (noType_single (by simp))
        refine hn.sub fun t ht => ?_
        have ht := List.mem_of_mem_drop ht
        rw [if_pos rfl, hus] at ht
        simpa using ht
      | true =>
        right
        simp [hs] at hdol
        subst hdol
        refine ⟨rfl, ?_, hs⟩
        rw [← hbody]
        simp only [Bool.false_eq_true, if_false, Nat.sub_zero, List.take_length, List.append_nil]
        have ht2 : NoType .eol (List.drop (if caret = true then 1 else 0) ts).dropLast := by
          refine hn.sub fun t ht => ?_
          rw [hus] at ht
          cases caret with
          | false => simpa using ht
          | true =>
            rcases us with _ | ⟨u, us⟩
            · simp at ht
            · simp at ht
              simp [ht]
        cases hp : List.drop (if caret = true then 1 else 0) ts with
        | nil =>
          rw [List.append_nil]
          exact hpre.sub fun t ht => List.dropLast_subset _ ht
        | cons x xs =>
          rw [hp] at ht2
          rw [List.dropLast_append_of_ne_nil (by simp)]
          exact hpre.append ht2
  split
  · rename_i hm
    have hnb : NoType .bol body := by
      rcases hb with h | ⟨h1, _, h3⟩
      · exact h
      · simp [h1, h3] at hm
    have hne : NoType .eol body := by
      rcases hd with h | ⟨h1, _, h3⟩
      · exact h
      · simp [h1, h3] at hm
    have p1 : ∀ k, k ≠ .openparen → k ≠ .closeparen → NoType k body → NoType k (openTok :: body ++ [closeTok]) := by
      intro k h1 h2 hb
      exact NoType.append (NoType.cons (fun h => h1 h.symm) hb) (noType_single (fun h => h2 h.symm))
    have q1 := p1 .bol (by simp) (by simp) hnb
    have q2 := p1 .eol (by simp) (by simp) hne
    exact ⟨⟨q1.sub fun t ht => List.mem_of_mem_tail ht, q2.sub fun t ht => List.dropLast_subset _ ht,
      p1 .end_ (by simp) (by simp) hnd⟩, fun _ => q1, fun _ => q2⟩
  · refine ⟨⟨?_, ?_, hnd⟩, ?_, ?_⟩
    · rcases hb with h | h
      · exact h.sub fun t ht => List.mem_of_mem_tail ht
      · exact h.2.1
    · rcases hd with h | h
      · exact h.sub fun t ht => List.dropLast_subset _ ht
      · exact h.2.1
    · intro ha
      rcases hb with h | h
      · exact h
      · rw [h.1] at ha; cases ha
    · intro ha
      rcases hd with h | h
      · exact h
      · rw [h.1] at ha; cases ha

theorem checkDiff_type (d : Nat) (lhs rhs : Tok) : Post (fun u => u.type = lhs.type) (checkDiff d lhs rhs) := by
  unfold checkDiff
  refine post_if (fun _ => Post.throw) fun _ => post_if (fun _ => ?_) fun _ => ?_
  · cases lhs.str.remove rhs.str with
    | none => exact Post.error
    | some str => exact post_if (fun _ => Post.throw) fun _ => Post.ok rfl
  · exact post_if (fun _ => Post.ok rfl) fun _ => Post.ok rfl

/-- All macros keep their anchors at their ends. -/
def MacrosAnch (macros : List (List Nat × List Tok)) : Prop :=
  ∀ name m, find name macros = some m → WholeAnch m

/-- The tokens read so far, and the position in the text. -/
structure LoopAnch (ts : List Tok) (st : TkState) : Prop where
  anch : Anch ts
  last : lastType .begin ts = .eol → st.rest = []
  pos : st.rest.length ≤ st.len
  len : ts ≠ [] → st.rest.length < st.len

theorem anch_append {ts us : List Tok} (h : Anch ts) (hl : lastType .begin ts ≠ .eol)
    (hu : Anch us) (hb : ts ≠ [] → NoType .bol us) : Anch (ts ++ us) := by
  cases us with
  | nil => rw [List.append_nil]; exact h
  | cons u us =>
    refine ⟨?_, ?_, h.noEnd.append hu.noEnd⟩
    · cases ts with
      | nil => exact hu.bol
      | cons t ts => exact NoType.append h.bol (hb (by simp))
    · rw [List.dropLast_append_of_ne_nil (by simp)]
      refine NoType.append ?_ hu.eol
      rcases nil_or_snoc ts with rfl | ⟨vs, t, rfl⟩
      · exact noType_nil
      · have := h.eol
        rw [List.dropLast_concat] at this
        rw [lastType_append_single] at hl
        exact this.append (noType_single hl)

theorem lastType_mem {ts : List Tok} {k : TT} (h : lastType .begin ts = k) (hk : k ≠ .begin) : ∃ t ∈ ts, t.type = k := by
  rcases nil_or_snoc ts with rfl | ⟨vs, t, rfl⟩
  · exact (hk h.symm).elim
  · rw [lastType_append_single] at h
    exact ⟨t, by simp, h⟩

theorem tokLoop_anch {E : TokEnv} (hE : TokEnvOk E) {macros : List (List Nat × List Tok)} (hm : MacrosAnch macros) :
    ∀ (n : Nat) (ts : List Tok) (mac : List Nat) (diff : Option Nat) (st : TkState),
    TextOk E st.rest → PlainCounts st.rest → LoopAnch ts st → (diff.isSome = true → lastType .begin ts = .charset) →
    Post WholeAnch (tokLoop E macros n (beginTok :: ts) mac diff st)
  | 0, ts, mac, diff, st, _, _, _, _ => Post.error
  | n + 1, ts, mac, diff, st, hx, hsm, hA, hd => by
    unfold tokLoop
    have hlast : ∃ lhs, (beginTok :: ts).getLast? = some lhs ∧ lhs.type = lastType .begin ts ∧
        (lastType .begin ts = .charset → ∃ us, ts = us ++ [lhs]) := by
      rcases nil_or_snoc ts with rfl | ⟨us, t, rfl⟩
      · exact ⟨beginTok, rfl, rfl, by simp [lastType]⟩
      · refine ⟨t, by simp [List.getLast?_cons], by simp [lastType], fun _ => ⟨us, rfl⟩⟩
    obtain ⟨lhs, hl1, hl2, hl3⟩ := hlast
    rw [hl1]
    dsimp only
    have hboth : Post (fun x => TokNextOk E.max lhs.type st x ∧ NextAnchor st x) (st.next E lhs.type) := fun a ha =>
      ⟨(next_total hE lhs.type st hx hsm).post a ha, next_anchor E lhs.type st a ha⟩
    refine hboth.bind fun x hN => ?_
    obtain ⟨hN, hNa⟩ := hN
    obtain ⟨rhs, st'⟩ := x
    have hx' := textOk_suffix hx hN.suffix
    have hsm' := plainCounts_infix hsm hN.suffix.isInfix
    have hlen' : st'.rest.length ≤ st.rest.length := hN.suffix.length_le
    have hl' : st'.len = st.len := hNa.len
    cases rhs with
    | diff c =>
      have hlt := (hN.adv (by simp)).length
      dsimp only at hlt hx' hsm' ⊢
      have hch := (hN.diff c rfl).1
      refine post_if (fun _ => Post.throw) fun _ => ?_
      refine tokLoop_anch hE hm n ts [] (some c) st' hx' hsm' ⟨hA.anch, ?_, ?_, ?_⟩ (fun _ => hl2 ▸ hch)
      · intro h
        rw [hA.last h] at hlt
        simp at hlt
      · have := hA.pos; omega
      · have := hA.pos; omega
    | tok rhs =>
      dsimp only
      refine post_if (fun _ => Post.throw) fun _ => ?_
      by_cases hend : rhs = endTok
      · subst hend
        rw [if_neg (by simp [endTok])]
        cases diff with
        | some d => exact Post.throw
        | none =>
          change Post _ (if _ then Except.ok (beginTok :: ts ++ [endTok]) else _)
          rw [if_pos (by rw [List.getLast?_append]; simp [endTok])]
          exact Post.ok ⟨ts, rfl, hA.anch⟩
      · have hne : st.rest ≠ [] := by
          intro h
          have := hNa.stop h
          simp only [Lexeme.tok.injEq] at this
          exact hend this
        have hlast : lastType .begin ts ≠ .eol := fun h => hne (hA.last h)
        have hlt := (hN.adv (by simpa using hend)).length
        dsimp only at hlt
        have loop : ∀ (us : List Tok) (mac : List Nat), Anch us → (lastType .begin us = .eol → st'.rest = []) →
            Post WholeAnch (if ((beginTok :: us).getLast?).map (·.type) = some .end_ then .ok (beginTok :: us)
              else tokLoop E macros n (beginTok :: us) mac none st') := by
          intro us mac hU hL
          rw [if_neg]
          · refine tokLoop_anch hE hm n us mac none st' hx' hsm' ⟨hU, hL, ?_, ?_⟩ (by simp)
            · have := hA.pos; omega
            · have := hA.pos; omega
          · rcases nil_or_snoc us with rfl | ⟨vs, t, rfl⟩
            · simp [beginTok]
            · have := hU.noEnd t (by simp)
              rw [← List.cons_append, List.getLast?_concat]
              simpa using this

        have hdiff : ∀ (d : Nat) (r : Tok), (diff = some d) → ∀ mac,
            Post WholeAnch (do
              let lhs ← checkDiff d lhs r
              if (((beginTok :: ts).dropLast ++ [lhs]).getLast?).map (·.type) = some .end_ then .ok ((beginTok :: ts).dropLast ++ [lhs])
              else tokLoop E macros n ((beginTok :: ts).dropLast ++ [lhs]) mac none st') := by
          intro d r hd' mac
          have hch := hd (by simp [hd'])
          obtain ⟨us, rfl⟩ := hl3 hch
          have hlt : lhs.type = .charset := by rw [hl2]; exact hch
          refine (checkDiff_type d lhs r).bind fun u hu => ?_
          rw [show (beginTok :: (us ++ [lhs])).dropLast ++ [u] = beginTok :: (us ++ [u]) by
            rw [← List.cons_append, List.dropLast_concat, List.cons_append]]
          refine loop (us ++ [u]) mac ?_ ?_
          · have ha := hA.anch
            refine ⟨?_, ?_, ?_⟩
            · cases us with
              | nil => exact noType_nil
              | cons v us => exact NoType.append (ha.bol.sub fun t ht => by simp [ht]) (noType_single (by rw [hu, hlt]; simp))
            · have := ha.eol
              rw [List.dropLast_concat] at this ⊢
              exact this
            · exact NoType.append (ha.noEnd.sub fun t ht => by simp [ht]) (noType_single (by rw [hu, hlt]; simp))
          · rw [lastType_append_single, hu, hlt]
            intro h; cases h
        refine post_if (fun hmac => ?_) fun hmac => ?_
        · split
          · exact Post.throw
          · rename_i m hfind
            have hM := hm _ _ hfind
            split
            · split
              · exact Post.error
              · refine post_if (fun _ => Post.throw) fun _ => ?_
                exact hdiff _ _ rfl rhs.extra
            · refine (expandMacro_anch hM _ _).bind fun body hbody => ?_
              refine loop (ts ++ body) rhs.extra (anch_append hA.anch hlast hbody.anch ?_) ?_
              · intro h
                refine hbody.start ?_
                cases ts with
                | nil => exact (h rfl).elim
                | cons t ts => simp
              · intro h
                cases hr : st'.rest with
                | nil => rfl
                | cons c cs =>
                  have hns := hbody.stop (by rw [hr]; simp)
                  cases body with
                  | nil => rw [List.append_nil] at h; exact (hlast h).elim
                  | cons b bs =>
                    rcases nil_or_snoc (b :: bs) with h' | ⟨vs, t, h'⟩
                    · cases h'
                    · rw [h', ← List.append_assoc, lastType_append_single] at h
                      exact (hns t (by rw [h']; simp) h).elim
        · cases diff with
          | some d => exact hdiff d rhs rfl mac
          | none =>
            refine loop (ts ++ [rhs]) [] (anch_append hA.anch hlast ⟨noType_nil, noType_nil, noType_single ?_⟩ ?_) ?_
            · intro h
              rcases hN.tok rhs rfl with g | g | g
              · exact hend g.1
              · exact hmac g.1
              · rcases g.1 with g | g | ⟨⟨_, _, g⟩, _⟩
                · rw [g.1] at h; cases h
                · rw [h] at g; simp at g
                · cases g <;> cases h
            · intro h
              refine noType_single fun hb => ?_
              have := hNa.bol rhs rfl hb
              have := hA.len h
              omega
            · rw [lastType_append_single]
              exact hNa.eol rhs rfl

/-! ### `strip_parens`, `prune` and `split` -/

/-- Anchors and other tokens. -/
def kind : TT → Nat
  | .bol => 1
  | .eol => 2
  | _ => 0

def kinds (ts : List Tok) : List Nat := ts.map (fun t => kind t.type)

theorem kinds_append (a b : List Tok) : kinds (a ++ b) = kinds a ++ kinds b := by simp [kinds]

theorem kind_bol {t : TT} : kind t = 1 ↔ t = .bol := by cases t <;> simp [kind]
theorem kind_eol {t : TT} : kind t = 2 ↔ t = .eol := by cases t <;> simp [kind]

theorem mem_drop2_of_sublist {a b c : Nat} : ∀ {l : List Nat}, [a, b, c].Sublist l → c ∈ l.drop 2 := by
  intro l h
  have := h.drop 2
  exact this.subset (by simp)

theorem mem_dropLast2_of_sublist {a b c : Nat} {l : List Nat} (h : [a, b, c].Sublist l) : a ∈ l.reverse.drop 2 := by
  have := h.reverse
  exact mem_drop2_of_sublist this

theorem tokOk_notEnd {max : Nat} {t : Tok} (h : TokOk max t) : t.type ≠ .end_ := by
  intro e
  rcases h with g | g | ⟨⟨_, _, g⟩, _⟩
  · rw [g.1] at e; cases e
  · rw [e] at g; simp at g
  · cases g <;> cases e

theorem wholeAnch_sub {max : Nat} {toks toks' : List Tok} (h : WholeAnch toks) (hs : (kinds toks').Sublist (kinds toks))
    (hw : WholeOk max toks') : WholeAnch toks' := by
  obtain ⟨ts, rfl, ha⟩ := h
  obtain ⟨us, rfl, hB⟩ := hw
  refine ⟨us, rfl, ?_, ?_, fun t ht => tokOk_notEnd (hB.tok t ht)⟩
  · intro t ht hbol
    cases us with
    | nil => cases ht
    | cons u us =>
      have h3 : [kind .begin, kind u.type, 1].Sublist (kinds (beginTok :: (u :: us) ++ [endTok])) := by
        show List.Sublist _ (kind .begin :: kind u.type :: kinds (us ++ [endTok]))
        refine .cons₂ _ (.cons₂ _ ?_)
        rw [List.singleton_sublist]
        exact List.mem_map.2 ⟨t, by simp at ht; simp [ht], kind_bol.2 hbol⟩
      have := mem_drop2_of_sublist (h3.trans hs)
      unfold kinds at this
      rw [← List.map_drop] at this
      obtain ⟨v, hv, hk⟩ := List.mem_map.1 this
      rw [kind_bol] at hk
      cases ts with
      | nil => simp at hv
      | cons x xs =>
        simp at hv
        rcases hv with hv | hv
        · exact ha.bol v hv hk
        · rw [hv] at hk; cases hk
  · intro t ht heol
    rcases nil_or_snoc us with rfl | ⟨us, u, rfl⟩
    · cases ht
    · rw [List.dropLast_concat] at ht
      have h3 : [2, kind u.type, kind .end_].Sublist (kinds (beginTok :: (us ++ [u]) ++ [endTok])) := by
        rw [show beginTok :: (us ++ [u]) ++ [endTok] = (beginTok :: us) ++ [u, endTok] by simp, kinds_append]
        refine List.Sublist.append (l₁ := [2]) ?_ (List.Sublist.refl _)
        rw [List.singleton_sublist]
        exact List.mem_map.2 ⟨t, by simp [ht], kind_eol.2 heol⟩
      have := mem_dropLast2_of_sublist (h3.trans hs)
      unfold kinds at this
      rw [← List.map_reverse, ← List.map_drop] at this
      obtain ⟨v, hv, hk⟩ := List.mem_map.1 this
      rw [kind_eol] at hk
      rcases nil_or_snoc ts with rfl | ⟨xs, x, rfl⟩
      · simp at hv
      · simp at hv
        rcases hv with hv | hv
        · exact ha.eol v (by simpa using hv) hk
        · rw [hv] at hk; cases hk

theorem kinds_sublist {a b : List Tok} (h : a.Sublist b) : (kinds a).Sublist (kinds b) := h.map _

theorem stripParens_sub : ∀ (n : Nat) (toks : List Tok), (kinds (stripParens n toks)).Sublist (kinds toks)
  | 0, toks => List.Sublist.refl _
  | n + 1, toks => by
    unfold stripParens
    dsimp only
    split
    · refine (stripParens_sub n _).trans (kinds_sublist ?_)
      exact (List.eraseIdx_sublist _ _).trans (List.eraseIdx_sublist _ _)
    · exact List.Sublist.refl _

theorem widen_le (toks : List Tok) : ∀ (n start idx : Nat), start ≤ idx →
    Post (fun x => x.1 ≤ x.2) (widen toks n start idx)
  | 0, _, _, _ => Post.error
  | n + 1, start, idx, h => by
    unfold widen
    split
    · split
      · refine post_if (fun _ => widen_le toks n _ _ (by omega)) fun _ => Post.ok h
      · exact Post.error
    · exact Post.error

theorem take_drop_sublist {α : Type} (l : List α) {a b : Nat} (h : a ≤ b) : (l.take a ++ l.drop b).Sublist l := by
  have h1 := List.drop_sublist_drop_left l h
  have := List.Sublist.append (List.Sublist.refl (l.take a)) h1
  rwa [List.take_append_drop] at this

theorem removeSequence_sub (toks : List Tok) (idx : Nat) :
    Post (fun x => x.1.Sublist toks) (removeSequence toks idx) := by
  unfold removeSequence
  split
  · exact Post.error
  · rename_i t before _
    have fin : ∀ start, start ≤ idx → Post (fun x : List Tok × Nat × Nat => x.1.Sublist toks) (do
        let (start, idx) ← widen toks (toks.length + 1) start idx
        let toks := toks.take start ++ toks.drop (idx + 1)
        match toks[start]? with
        | none => .error (.ub "tokens_")
        | some t =>
          if t.type = .or_ then .ok (toks.eraseIdx start, start, idx)
          else if t.type ≠ .begin ∧ (toks[start - 1]?).map (·.type) = some .or_ then
            .ok (toks.eraseIdx (start - 1), start, idx)
          else .ok (toks, start, idx)) := by
      intro start hs
      refine (widen_le toks _ _ _ hs).bind fun x hx => ?_
      obtain ⟨a, b⟩ := x
      dsimp only at hx ⊢
      have hsub : (toks.take a ++ toks.drop (b + 1)).Sublist toks := take_drop_sublist toks (by omega)
      split
      · exact Post.error
      · refine post_if (fun _ => Post.ok ?_) fun _ => post_if (fun _ => Post.ok ?_) fun _ => Post.ok hsub
        · exact (List.eraseIdx_sublist _ _).trans hsub
        · exact (List.eraseIdx_sublist _ _).trans hsub
    refine post_if (fun _ => ?_) fun _ => fin _ (by omega)
    split
    · exact fin _ (by omega)
    · exact Post.error

theorem kinds_set {toks : List Tok} {idx : Nat} {op t : Tok} (h : toks[idx]? = some op) (hk : kind t.type = kind op.type) :
    kinds (toks.set idx t) = kinds toks := by
  unfold kinds
  rw [List.map_set]
  apply List.ext_getElem?
  intro i
  rw [List.getElem?_set]
  split
  · rename_i hi
    subst hi
    rw [List.getElem?_map, h]
    split
    · simp [hk]
    · rename_i hl
      have := (List.getElem?_eq_some_iff.1 h).1
      simp at hl
      omega
  · rfl

theorem pruneLoop_sub : ∀ (n : Nat) (toks : List Tok) (idxs : List Nat),
    Post (fun out => (kinds out).Sublist (kinds toks)) (pruneLoop n toks idxs)
  | 0, _, _ => Post.error
  | n + 1, toks, [] => Post.ok (List.Sublist.refl _)
  | n + 1, toks, idx :: idxs => by
    unfold pruneLoop
    split
    · exact Post.error
    · rename_i op hop
      have fin : ∀ x : List Tok × Nat × Nat, (kinds x.1).Sublist (kinds toks) →
          Post (fun out => (kinds out).Sublist (kinds toks)) (pruneLoop n x.1 (idxs.dropWhile (fun i => x.2.1 ≤ i && i ≤ x.2.2))) :=
        fun x hx => (pruneLoop_sub n _ _).mono fun out ho => ho.trans hx
      refine post_if (fun _ => ?_) fun _ => fin (toks, idx, idx) (List.Sublist.refl _)
      split
      · exact (removeSequence_sub toks idx).bind fun x hx => fin x (kinds_sublist hx)
      · exact (removeSequence_sub toks idx).bind fun x hx => fin x (kinds_sublist hx)
      · exact fin (toks.eraseIdx idx, idx, idx) (kinds_sublist (List.eraseIdx_sublist _ _))
      · rename_i hty
        have hk : kinds (toks.set idx { op with type := .repeatn, extra := beforeComma op.extra }) = kinds toks :=
          kinds_set hop (by rw [hty]; rfl)
        refine post_if (fun _ => ?_) fun _ => fin (_, idx, idx) (by dsimp only; rw [hk]; exact List.Sublist.refl _)
        refine (removeSequence_sub _ idx).bind fun x hx => fin x ?_
        have := kinds_sublist hx
        rwa [hk] at this
      · exact fin (toks, idx, idx) (List.Sublist.refl _)

theorem splitOr_sub : ∀ (ts : List Tok) (n : Int) (cur : List Tok), ∀ p ∈ splitOr n cur ts,
    (kinds p).Sublist (0 :: kinds (cur ++ ts))
  | [], n, cur, p, hp => by simp [splitOr] at hp
  | t :: ts, n, cur, p, hp => by
    have step : ∀ m, p ∈ splitOr m (cur ++ [t]) ts → (kinds p).Sublist (0 :: kinds (cur ++ t :: ts)) := by
      intro m h
      have := splitOr_sub ts m (cur ++ [t]) p h
      simpa using this
    have cut : kind t.type = 0 → p = beginTok :: cur ++ [endTok] → (kinds p).Sublist (0 :: kinds (cur ++ t :: ts)) := by
      intro hk h
      rw [h, List.cons_append]
      show List.Sublist (0 :: kinds (cur ++ [endTok])) _
      refine .cons₂ _ ?_
      rw [kinds_append, kinds_append]
      refine List.Sublist.append (List.Sublist.refl _) ?_
      show List.Sublist [0] (kind t.type :: kinds ts)
      rw [hk]
      exact .cons₂ _ (List.nil_sublist _)
    unfold splitOr at hp
    split at hp
    · exact step _ hp
    · exact step _ hp
    · rename_i hty
      split at hp
      · rcases List.mem_cons.1 hp with h | h
        · exact cut (by rw [hty]; rfl) h
        · refine (splitOr_sub ts n [] p h).trans (.cons₂ _ (kinds_sublist ?_))
          exact (List.sublist_append_right _ ts).trans (List.Sublist.append (List.Sublist.refl cur) (List.sublist_cons_self t ts))
      · exact step _ hp
    · rename_i hty
      rcases List.mem_cons.1 hp with h | h
      · exact cut (by rw [hty]; rfl) h
      · exact step _ h
    · exact step _ hp

theorem splitOr_mem {t : Tok} (ht : t.type ≠ .or_) : ∀ (us : List Tok) (n : Int) (cur : List Tok), t ∈ cur ++ us →
    ∃ p ∈ splitOr n cur (us ++ [endTok]), t ∈ p
  | [], n, cur, h => by
    rw [List.append_nil] at h
    refine ⟨beginTok :: cur ++ [endTok], by simp [splitOr, endTok], by simp [h]⟩
  | u :: us, n, cur, h => by
    have step : ∀ m, ∃ p ∈ splitOr m (cur ++ [u]) (us ++ [endTok]), t ∈ p := fun m =>
      splitOr_mem ht us m (cur ++ [u]) (by simpa using h)
    rw [List.cons_append]
    unfold splitOr
    split
    · exact step _
    · exact step _
    · rename_i hty
      split
      · rcases List.mem_append.1 h with h | h
        · exact ⟨_, List.mem_cons_self, by simp [h]⟩
        · rcases List.mem_cons.1 h with h | h
          · rw [h] at ht; exact (ht hty).elim
          · obtain ⟨p, hp, hm⟩ := splitOr_mem ht us n [] (by simpa using h)
            exact ⟨p, List.mem_cons_of_mem _ hp, hm⟩
      · exact step _
    · obtain ⟨p, hp, hm⟩ := step n
      exact ⟨p, List.mem_cons_of_mem _ hp, hm⟩
    · exact step _

theorem tokenise_anch {E : TokEnv} (hE : TokEnvOk E) {macros : List (List Nat × List Tok)} (hm : MacrosOk E.max macros)
    (hma : MacrosAnch macros) (flags : ReFlags) (isMacro : Bool) {regex : List Nat} (hx : TextOk E regex) (hp : PlainCounts regex) :
    Post (fun tss => (∀ toks ∈ tss, WholeAnch toks) ∧ (tss.length = 1 ∨ ∃ toks ∈ tss, ∃ t ∈ toks, isLazy t.type = true))
      (tokenise E flags macros isMacro regex) := by
  have key : Post (fun tss => (∀ toks ∈ tss, ∃ base, WholeAnch base ∧ (kinds toks).Sublist (kinds base)) ∧
      (tss.length = 1 ∨ ∃ toks ∈ tss, ∃ t ∈ toks, isLazy t.type = true)) (tokenise E flags macros isMacro regex) := by
    unfold tokenise
    have h1 := (tokLoop_total hE hm (regex.length + 2) [] [] none { len := regex.length, rest := regex, flags := flags }
      hx hp ⟨by simp, rfl, trivial⟩ (by simp) (by simp)).post
    have h2 := tokLoop_anch hE hma (regex.length + 2) [] [] none { len := regex.length, rest := regex, flags := flags }
      hx hp ⟨⟨noType_nil, noType_nil, noType_nil⟩, by simp [lastType], Nat.le_refl _, by simp⟩ (by simp)
    have h12 : Post (fun toks => WholeOk E.max toks ∧ WholeAnch toks) _ := fun a ha => ⟨h1 a ha, h2 a ha⟩
    refine h12.bind fun toks ht => ?_
    obtain ⟨hw, ha⟩ := ht
    have hw := stripParens_ok toks.length toks hw
    have hs := stripParens_sub toks.length toks
    have ha := wholeAnch_sub ha hs hw
    generalize stripParens toks.length toks = base at hw ha
    have fin : ∀ toks, WholeOk E.max toks → (kinds toks).Sublist (kinds base) → Post (fun tss => (∀ toks ∈ tss, ∃ base, WholeAnch base ∧ (kinds toks).Sublist (kinds base)) ∧
        (tss.length = 1 ∨ ∃ toks ∈ tss, ∃ t ∈ toks, isLazy t.type = true))
        (if toks.length = 2 ∧ flags.matchZeroLen = false then throw_ "Empty regex is not allowed"
        else if isMacro ∨ lazyIndexes toks = [] then .ok [toks]
        else .ok (splitOr 0 [] toks.tail)) := by
      intro toks hw hsub
      refine post_if (fun _ => Post.throw) fun _ => post_if (fun _ => Post.ok ⟨?_, .inl rfl⟩) fun hl => Post.ok ⟨?_, .inr ?_⟩
      · intro t ht
        rw [List.mem_singleton.1 ht]
        exact ⟨base, ha, hsub⟩
      · intro t ht
        obtain ⟨us, rfl, hB⟩ := hw
        refine ⟨base, ha, (splitOr_sub _ _ _ t ht).trans ?_⟩
        exact hsub
      · rw [not_or] at hl
        obtain ⟨us, rfl, hB⟩ := hw
        cases hli : lazyIndexes (beginTok :: us ++ [endTok]) with
        | nil => exact (hl.2 hli).elim
        | cons i is =>
          obtain ⟨t, ht, hlz⟩ := (lazyIndexes_spec (beginTok :: us ++ [endTok])).2.2 i (by rw [hli]; simp)
          have hmem := List.mem_of_getElem? ht
          have hus : t ∈ us := by
            simp only [List.cons_append, List.mem_cons, List.mem_append, List.not_mem_nil, or_false] at hmem
            rcases hmem with h | h | h
            · rw [h] at hlz; simp [beginTok, isLazy] at hlz
            · exact h
            · rw [h] at hlz; simp [endTok, isLazy] at hlz
          obtain ⟨p, hp, hm⟩ := splitOr_mem (t := t) (by intro h; rw [h] at hlz; simp [isLazy] at hlz) us 0 [] (by simpa using hus)
          exact ⟨p, hp, t, hm, hlz⟩
    refine post_if (fun _ => fin base hw (List.Sublist.refl _)) fun _ => ?_
    obtain ⟨l1, l2, l3⟩ := lazyIndexes_spec base
    have p1 := (pruneLoop_total (max := E.max) (base.length + 1) base (lazyIndexes base).reverse hw l2 l1 l3).post
    have p2 := pruneLoop_sub (base.length + 1) base (lazyIndexes base).reverse
    have p12 : Post (fun toks => WholeOk E.max toks ∧ (kinds toks).Sublist (kinds base)) _ := fun a ha => ⟨p1 a ha, p2 a ha⟩
    exact p12.bind fun toks ht => fin toks ht.1 ht.2
  intro tss htss
  have htot := (tokenise_total hE hm flags isMacro hx hp).post tss htss
  obtain ⟨k1, k2⟩ := key tss htss
  refine ⟨fun toks ht => ?_, k2⟩
  obtain ⟨base, hb, hs⟩ := k1 toks ht
  exact wholeAnch_sub hb hs (htot.2.1 toks ht)

end Lexertl
