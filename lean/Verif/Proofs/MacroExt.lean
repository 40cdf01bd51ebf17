import Verif.Proofs.Anchors

/-
While a macro is being read its name is already in the table, without tokens.  This makes
no difference unless the text of the macro refers to it.
-/
namespace Lexertl
open Spec

/-- The first outcome is the second, or it is undefined behaviour and `C` holds. -/
def Ext {α : Type} (C : Prop) (a b : M α) : Prop := a = b ∨ ((∃ m, a = .error (.ub m)) ∧ C)

theorem Ext.bind {α β : Type} {C : Prop} {P : α → Prop} {x : M α} {f g : α → M β} (h : Post P x)
    (hf : ∀ a, P a → Ext C (f a) (g a)) : Ext C (x >>= f) (x >>= g) := by
  cases x with
  | error e => exact .inl rfl
  | ok a => exact hf a (h a rfl)

theorem Ext.refl {α : Type} {C : Prop} {a : M α} : Ext C a a := .inl rfl

theorem Ext.bindL {α β : Type} {C : Prop} {a b : M α} {f : α → M β} (h : Ext C a b) : Ext C (a >>= f) (b >>= f) := by
  rcases h with h | ⟨⟨m, h⟩, hc⟩
  · rw [h]; exact .inl rfl
  · rw [h]; exact .inr ⟨⟨m, rfl⟩, hc⟩

theorem Ext.mono {α : Type} {C C' : Prop} {a b : M α} (h : Ext C a b) (hc : C → C') : Ext C' a b := by
  rcases h with h | ⟨h, h'⟩
  · exact .inl h
  · exact .inr ⟨h, hc h'⟩

theorem macroName_eq : ∀ cs : List Nat, (macroName cs).1 ++ (macroName cs).2 = cs
  | [] => rfl
  | c :: cs => by
    unfold macroName
    split
    · simp [macroName_eq cs]
    · rfl

theorem macroTok_text (cs : List Nat) : Post (fun x => x.1.extra ++ 125 :: x.2 = cs) (macroTok cs) := by
  unfold macroTok
  cases cs with
  | nil => exact Post.throw
  | cons c cs =>
    dsimp only
    refine post_if (fun _ => Post.throw) fun _ => ?_
    have h := macroName_eq cs
    generalize macroName cs = q at h
    obtain ⟨name, cs'⟩ := q
    dsimp only at h ⊢
    cases cs' with
    | nil => exact Post.throw
    | cons d cs' =>
      refine post_if (fun _ => Post.throw) fun hd => Post.ok ?_
      have hd : d = 125 := Decidable.not_not.1 hd
      rw [hd] at h
      dsimp only
      rw [List.cons_append, h]

theorem openCurly_text (lhs : TT) (cs : List Nat) :
    Post (fun x => ∀ t, x.1 = .tok t → t.type = .macro_ → t.extra ++ 125 :: x.2 = cs) (openCurly lhs cs) := by
  unfold openCurly
  cases cs with
  | nil => exact Post.throw
  | cons c cs =>
    dsimp only
    refine post_if (fun _ => ?_) fun _ => post_if (fun _ => ?_) fun _ => ?_
    · refine post_if (fun _ => Post.throw) fun _ => ?_
      cases cs with
      | nil => exact Post.throw
      | cons d cs =>
        refine post_if (fun _ => Post.throw) fun _ => Post.ok ?_
        intro t ht; cases ht
    · refine (repeatN_type _).bind fun x hx => Post.ok ?_
      intro t ht hm
      cases ht
      rw [hm] at hx
      simp [isPostfix] at hx
    · refine (macroTok_text _).bind fun x hx => Post.ok ?_
      intro t ht _
      cases ht
      exact hx

theorem next_refers (E : TokEnv) (lhs : TT) (s : TkState) :
    Post (fun x => ∀ t, x.1 = .tok t → t.type = .macro_ → Refers t.extra s.rest) (s.next E lhs) := by
  unfold TkState.next
  refine (leadIn_total s.flags (s.rest.length + 2) s.inString s.rest (by omega)).post.bind fun x hx => ?_
  obtain ⟨b, cs⟩ := x
  dsimp only at hx ⊢
  cases cs with
  | nil =>
    dsimp only
    refine post_if (fun _ => Post.throw) fun _ => post_if (fun _ => Post.throw) fun _ => Post.ok ?_
    intro t ht; cases ht; simp
  | cons c cs =>
    dsimp only
    have fin : ∀ (t : Tok) (s' : TkState), t.type ≠ .macro_ →
        Post (fun x : Lexeme × TkState => ∀ t, x.1 = .tok t → t.type = .macro_ → Refers t.extra s.rest) (.ok (.tok t, s')) := by
      intro t s' h1
      refine Post.ok ?_
      intro u hu; cases hu; intro h; exact (h1 h).elim
    have finLazy : ∀ (a b : TT) (s' : List Nat → TkState), isPostfix a = true → isPostfix b = true →
        Post (fun x : Lexeme × TkState => ∀ t, x.1 = .tok t → t.type = .macro_ → Refers t.extra s.rest)
          (.ok (.tok (lazyTok a b [] cs).1, s' (lazyTok a b [] cs).2)) := by
      intro a b s' h1 h2
      have ht := lazyTok_type a b [] cs
      have : isPostfix (lazyTok a b [] cs).1.type = true := by rcases ht with h | h <;> rw [h] <;> assumption
      exact fin _ _ (by intro h; rw [h] at this; simp [isPostfix] at this)
    refine post_if (fun _ => ?_) fun _ => ?_
    · exact Post.any fun x => fin _ _ (by simp)
    refine post_if (fun _ => fin _ _ (by simp)) fun _ => ?_
    refine post_if (fun _ => ?_) fun _ => ?_
    · split
      · exact Post.any fun x => fin _ _ (by simp)
      · exact fin _ _ (by simp)
    refine post_if (fun _ => ?_) fun _ => ?_
    · refine post_if (fun _ => Post.throw) fun _ => ?_
      split
      · exact fin _ _ (by simp)
      · exact fin _ _ (by simp)
    refine post_if (fun _ => ?_) fun _ => ?_
    · exact finLazy .opt .aopt (fun r => { s with inString := b, rest := r }) rfl rfl
    refine post_if (fun _ => ?_) fun _ => ?_
    · exact finLazy .zeroormore .azeroormore (fun r => { s with inString := b, rest := r }) rfl rfl
    refine post_if (fun _ => ?_) fun _ => ?_
    · exact finLazy .oneormore .aoneormore (fun r => { s with inString := b, rest := r }) rfl rfl
    refine post_if (fun hc => ?_) fun _ => ?_
    · refine (openCurly_text lhs cs).bind fun x hx' => Post.ok ?_
      intro t ht hm
      have := hx' t ht hm
      rw [hc, ← this] at hx
      refine List.IsInfix.trans ?_ hx.isInfix
      exact ⟨[], x.2, by simp⟩
    refine post_if (fun _ => fin _ _ (by simp)) fun _ => ?_
    refine post_if (fun _ => ?_) fun _ => ?_
    · exact post_if (fun he => fin _ _ (by simp)) fun _ => fin _ _ (by simp)
    refine post_if (fun _ => ?_) fun _ => ?_
    · exact post_if (fun he => fin _ _ (by simp)) fun _ => fin _ _ (by simp)
    refine post_if (fun _ => fin _ _ (by simp)) fun _ => ?_
    refine post_if (fun _ => ?_) fun _ => ?_
    · exact Post.any fun x => fin _ _ (by simp)
    exact post_if (fun _ => Post.throw) fun _ => fin _ _ (by simp)

theorem find_append {α : Type} (key name : List Nat) (v : α) : ∀ l : List (List Nat × α),
    find key (l ++ [(name, v)]) = (find key l).or (if name = key then some v else none)
  | [] => by simp [find]
  | (k, w) :: l => by
    simp only [List.cons_append, find]
    split
    · simp
    · exact find_append key name v l

theorem ext_if {α : Type} {C : Prop} {c : Prop} [Decidable c] {a b a' b' : M α} (h1 : c → Ext C a a') (h2 : ¬ c → Ext C b b') :
    Ext C (if c then a else b) (if c then a' else b') := by
  split
  · exact h1 ‹_›
  · exact h2 ‹_›

theorem tokLoop_ext {E : TokEnv} (hE : TokEnvOk E) {macros : List (List Nat × List Tok)} {name : List Nat}
    (hname : find name macros = none) : ∀ (n : Nat) (toks : List Tok) (mac : List Nat) (diff : Option Nat) (st : TkState),
    TextOk E st.rest → PlainCounts st.rest →
    Ext (Refers name st.rest) (tokLoop E (macros ++ [(name, [])]) n toks mac diff st) (tokLoop E macros n toks mac diff st)
  | 0, _, _, _, _, _, _ => .inl rfl
  | n + 1, toks, mac, diff, st, hx, hsm => by
    unfold tokLoop
    split
    · exact Ext.refl
    rename_i lhs _
    have hboth : Post (fun x => TokNextOk E.max lhs.type st x ∧ ∀ t, x.1 = .tok t → t.type = .macro_ → Refers t.extra st.rest)
        (st.next E lhs.type) := fun a ha =>
      ⟨(next_total hE lhs.type st hx hsm).post a ha, next_refers E lhs.type st a ha⟩
    refine Ext.bind hboth fun x hN => ?_
    obtain ⟨hN, hR⟩ := hN
    obtain ⟨rhs, st'⟩ := x
    have hx' := textOk_suffix hx hN.suffix
    have hsm' := plainCounts_infix hsm hN.suffix.isInfix
    have loop : ∀ toks mac diff, Ext (Refers name st.rest) (tokLoop E (macros ++ [(name, [])]) n toks mac diff st')
        (tokLoop E macros n toks mac diff st') := fun toks mac diff =>
      (tokLoop_ext hE hname n toks mac diff st' hx' hsm').mono fun h => h.trans hN.suffix.isInfix
    have loop2 : ∀ toks mac diff, Ext (Refers name st.rest)
        (if (toks.getLast?).map (·.type) = some .end_ then .ok toks else tokLoop E (macros ++ [(name, [])]) n toks mac diff st')
        (if (toks.getLast?).map (·.type) = some .end_ then .ok toks else tokLoop E macros n toks mac diff st') := fun toks mac diff =>
      ext_if (fun _ => Ext.refl) fun _ => loop _ _ _
    have hfind : ∀ key, find key (macros ++ [(name, [])]) = find key macros ∨ (key = name ∧ find key (macros ++ [(name, [])]) = some []) := by
      intro key
      rw [find_append]
      by_cases h : name = key
      · right; subst h; simp [hname]
      · left; simp [h]
    cases rhs with
    | diff c =>
      dsimp only
      have : ((find mac (macros ++ [(name, [])])).map List.length).getD 0 = ((find mac macros).map List.length).getD 0 := by
        rcases hfind mac with h | ⟨h1, h2⟩
        · rw [h]
        · rw [h2, h1, hname]; rfl
      rw [this]
      exact ext_if (fun _ => Ext.refl) fun _ => loop _ _ _
    | tok rhs =>
      dsimp only
      refine ext_if (fun _ => Ext.refl) fun _ => ext_if (fun hmac => ?_) fun _ => ?_
      · rcases hfind rhs.extra with h | ⟨h1, h2⟩
        · rw [h]
          split
          · exact Ext.refl
          · split
            · split
              · exact Ext.refl
              · refine ext_if (fun _ => Ext.refl) fun _ => ?_
                refine Ext.bind (P := fun _ => True) (fun _ _ => trivial) fun a _ => ?_
                exact loop2 _ _ _
            · refine Ext.bind (P := fun _ => True) (fun _ _ => trivial) fun a _ => ?_
              exact loop2 _ _ _
        · refine .inr ⟨?_, h1 ▸ hR rhs rfl hmac⟩
          rw [h2]
          dsimp only
          split
          · exact ⟨_, rfl⟩
          · exact ⟨_, rfl⟩
      · split
        · refine Ext.bind (P := fun _ => True) (fun _ _ => trivial) fun a _ => ?_
          exact loop2 _ _ _
        · exact loop2 _ _ _

theorem tokenise_ext {E : TokEnv} (hE : TokEnvOk E) {macros : List (List Nat × List Tok)} {name : List Nat}
    (hname : find name macros = none) (flags : ReFlags) (isMacro : Bool) {regex : List Nat} (hx : TextOk E regex) (hp : PlainCounts regex) :
    Ext (Refers name regex) (tokenise E flags (macros ++ [(name, [])]) isMacro regex) (tokenise E flags macros isMacro regex) := by
  unfold tokenise
  exact Ext.bindL (tokLoop_ext hE hname _ _ _ _ { len := regex.length, rest := regex, flags := flags } hx hp)

end Lexertl
