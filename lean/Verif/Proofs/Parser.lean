import Verif.Spec.Regex
import Verif.Proofs.Copy

/-
The operator-precedence parser follows the grammar of `Spec.Derives`: parsing a
derivable token sequence performs exactly the tree-building actions of the
derived expression, bottom up.
-/
namespace Lexertl
open Spec

namespace PState

/-- Greediness given to an operator. -/
def opGreedy (lazy : Bool) : Greedy := if lazy then .no else .hard

/-- Comma seen and maximum, as `counts` reports them. -/
def hiParts (lo : Nat) : Option Nat → Bool × Nat
  | none => (true, 0)
  | some h => if h = lo then (false, 0) else (true, h)

/-- The tree-building actions for an expression. -/
def act (tr : Traits) : Re → PState → M PState
  | .chars t, p =>
    if tr.compressed then p.pushRows tr (sliceToken tr.char24 t) else .ok (p.pushRange tr t)
  | .bol, p => .ok (p.pushLeaf tr tr.bolToken .yes)
  | .eol, p =>
    let (p, cr) := p.lookup tr (Token.ofChar 13)
    let (p, nl) := p.lookup tr (Token.ofChar 10)
    let p := if cr ≠ tr.npos then { p with crId := cr } else p
    let p := if nl ≠ tr.npos then { p with nlId := nl } else p
    .ok (p.pushLeaf tr tr.eolToken .yes)
  | .seq l r, p => do (← act tr r (← act tr l p)).sequence
  | .alt l r, p => do (← act tr r (← act tr l p)).performOr
  | .opt r lz, p => do (← act tr r p).optional tr (opGreedy lz)
  | .star r lz, p => do (← act tr r p).zeroOrMore (opGreedy lz)
  | .plus r lz, p => do (← act tr r p).oneOrMore tr (opGreedy lz)
  | .rep r lo hi lz, p => do
    (← act tr r p).repeatCounts tr (opGreedy lz) lo (hiParts lo hi).1 (hiParts lo hi).2

/-- `parseLoop` on a non-empty list of tokens still to be read. -/
def loop (tr : Traits) (k : Nat) (p : PState) (toks : List Tok) : List Tok → M PState
  | [] => .error .fuel
  | [t] => parseLoop tr k p toks t [t]
  | t :: us => parseLoop tr k p toks t us

theorem loop_shift (tr : Traits) (k : Nat) (p : PState) (x : Tok) (s : List Tok) (t u : Tok)
    (us : List Tok) (h : prec x.type t.type = .lt ∨ prec x.type t.type = .eq) :
    loop tr (k + 1) p (x :: s) (t :: u :: us) = loop tr k p (t :: x :: s) (u :: us) := by
  cases us with
  | nil => rcases h with h | h <;> simp only [loop, parseLoop, h]
  | cons v vs => rcases h with h | h <;> simp only [loop, parseLoop, h]

theorem loop_reduce (tr : Traits) (k : Nat) (p : PState) (x : Tok) (s : List Tok) (t : Tok)
    (us : List Tok) (h : prec x.type t.type = .gt) :
    loop tr (k + 1) p (x :: s) (t :: us) =
      (do let r ← p.reduce tr (x :: s); loop tr k r.1 r.2 (t :: us)) := by
  cases us <;> simp only [loop, parseLoop, h]

/-- Stack tops on which an atom may start. -/
def AtomCtx (t : TT) : Prop := t = .begin ∨ t = .openparen ∨ t = .or_ ∨ t = .sub
/-- Stack tops on which a sequence may start. -/
def SeqCtx (t : TT) : Prop := t = .begin ∨ t = .openparen ∨ t = .or_
/-- Stack tops on which an alternation may start. -/
def AltCtx (t : TT) : Prop := t = .begin ∨ t = .openparen
/-- Tokens that may follow an item. -/
def FolItem (t : TT) : Prop := t = .or_ ∨ t = .charset ∨ t = .bol ∨ t = .eol ∨ t = .openparen ∨
  t = .closeparen ∨ t = .end_
/-- Postfix operator tokens. -/
def Dup (t : TT) : Prop := t = .opt ∨ t = .aopt ∨ t = .zeroormore ∨ t = .azeroormore ∨
  t = .oneormore ∨ t = .aoneormore ∨ t = .repeatn ∨ t = .arepeatn
/-- Tokens that may follow an atom. -/
def FolAtom (t : TT) : Prop := FolItem t ∨ Dup t
/-- Tokens that may follow an alternation. -/
def FolAlt (t : TT) : Prop := t = .or_ ∨ t = .closeparen ∨ t = .end_
/-- Tokens starting an atom. -/
def Start (t : TT) : Prop := t = .charset ∨ t = .bol ∨ t = .eol ∨ t = .openparen

/-- What the machine does on a phrase of a given level. -/
def Parses (tr : Traits) : Level → List Tok → Re → Prop
  | .atom, ts, r => ∃ n, n + 6 ≤ 10 * ts.length ∧ ∀ x, AtomCtx x.type → ∀ f, FolAtom f.type →
      ∀ k p s us, loop tr (k + n) p (x :: s) (ts ++ f :: us) =
        (do loop tr k (← act tr r p) (newTok .repeat_ :: x :: s) (f :: us))
  | .item, ts, r => ∃ n, n + 5 ≤ 10 * ts.length ∧ ∀ x, AtomCtx x.type → ∀ f, FolItem f.type →
      ∀ k p s us, loop tr (k + n) p (x :: s) (ts ++ f :: us) =
        (do loop tr k (← act tr r p) (newTok .expression :: x :: s) (f :: us))
  | .seq, ts, r => ∃ n, n + 4 ≤ 10 * ts.length ∧ ∀ x, SeqCtx x.type → ∀ f, FolItem f.type →
      ∀ k p s us, loop tr (k + n) p (x :: s) (ts ++ f :: us) =
        (do loop tr k (← act tr r p) (newTok .sub :: x :: s) (f :: us))
  | .alt, ts, r => ∃ n, n + 2 ≤ 10 * ts.length ∧ ∀ x, AltCtx x.type → ∀ f, FolAlt f.type →
      ∀ k p s us, loop tr (k + n) p (x :: s) (ts ++ f :: us) =
        (do loop tr k (← act tr r p) (newTok .orexp :: x :: s) (f :: us))

theorem derives_start {l : Level} {ts : List Tok} {r : Re} (h : Derives l ts r) :
    ∃ t us, ts = t :: us ∧ Start t.type := by
  induction h with
  | charset e s => exact ⟨_, _, rfl, .inl rfl⟩
  | bol e s => exact ⟨_, _, rfl, .inr (.inl rfl)⟩
  | eol e s => exact ⟨_, _, rfl, .inr (.inr (.inl rfl))⟩
  | paren o c ts r ho hc _ _ => exact ⟨o, _, rfl, .inr (.inr (.inr ho))⟩
  | item _ _ _ ih => exact ih
  | postfix_ ts r d q _ _ ih => obtain ⟨t, us, rfl, h⟩ := ih; exact ⟨t, _, rfl, h⟩
  | seq1 _ _ _ ih => exact ih
  | seq ts us l r _ _ ih _ => obtain ⟨t, vs, rfl, h⟩ := ih; exact ⟨t, _, rfl, h⟩
  | alt1 _ _ _ ih => exact ih
  | alt ts us o l r _ _ _ ih _ => obtain ⟨t, vs, rfl, h⟩ := ih; exact ⟨t, _, rfl, h⟩

theorem digits_spec (ds rest : List Nat) (h : ∀ c ∈ ds, 48 ≤ c ∧ c ≤ 57)
    (hr : ∀ c cs, rest = c :: cs → ¬ (48 ≤ c ∧ c ≤ 57)) (acc : Nat) :
    digits acc (ds ++ rest) = (ds.foldl (fun n c => n * 10 + (c - 48)) acc, rest) := by
  induction ds generalizing acc with
  | nil =>
    cases rest with
    | nil => rfl
    | cons c cs => simp only [List.nil_append, digits, if_neg (hr c cs rfl), List.foldl]
  | cons d ds ih =>
    simp only [List.cons_append, digits, if_pos (h d (by simp)), List.foldl]
    exact ih (fun c hc => h c (by simp [hc])) _

theorem counts_spec {e : List Nat} {lo : Nat} {hi : Option Nat} (h : Count e lo hi) :
    counts e = (lo, (hiParts lo hi).1, (hiParts lo hi).2) := by
  cases h with
  | exact _ hd h1 =>
    have := digits_spec e [] hd.2 (by simp) 0
    rw [List.append_nil] at this
    unfold counts
    rw [this]
    simp [hiParts, decVal, digits]
  | atLeast ds hd h1 =>
    have := digits_spec ds [44] hd.2 (by simp) 0
    unfold counts
    rw [this]
    simp [hiParts, decVal, digits]
  | between ds es hd he h1 h2 =>
    have h3 := digits_spec ds (44 :: es) hd (by simp) 0
    have h4 := digits_spec es [] he.2 (by simp) 0
    rw [List.append_nil] at h4
    unfold counts
    rw [h3]
    have hne : decVal es ≠ decVal ds := by omega
    simp only [hiParts, if_neg hne, h4]
    rfl

theorem postfix_reduce (tr : Traits) {d : Tok} {r q : Re} (h : Postfix d r q) :
    Dup d.type ∧ ∀ p p', act tr r p = .ok p' →
      p'.reduceHandle tr [d] = (do .ok (← act tr q p, [newTok .dup])) := by
  cases h <;> refine ⟨by simp [Dup], fun p p' h => ?_⟩ <;>
    simp only [act, h, reduceHandle, opGreedy, bind, Except.bind, repeatN] <;> try rfl
  · rename_i hc; rw [counts_spec hc]; rfl
  · rename_i hc; rw [counts_spec hc]; rfl

theorem AtomCtx.lt {t : TT} (h : AtomCtx t) : prec t .charset = .lt ∧ prec t .bol = .lt ∧
    prec t .eol = .lt ∧ prec t .openparen = .lt ∧ prec t .repeat_ = .lt := by
  rcases h with rfl | rfl | rfl | rfl <;> decide

theorem SeqCtx.atom {t : TT} (h : SeqCtx t) : AtomCtx t := by
  rcases h with rfl | rfl | rfl <;> simp [AtomCtx]

theorem SeqCtx.lt {t : TT} (h : SeqCtx t) : prec t .expression = .lt ∧ prec t .sub = .lt := by
  rcases h with rfl | rfl | rfl <;> decide

theorem AltCtx.seq {t : TT} (h : AltCtx t) : SeqCtx t := by
  rcases h with rfl | rfl <;> simp [SeqCtx]

theorem AltCtx.lt {t : TT} (h : AltCtx t) : prec t .sequence = .lt ∧ prec t .orexp = .lt := by
  rcases h with rfl | rfl <;> decide

theorem FolAtom.gt {t : TT} (h : FolAtom t) : prec .charset t = .gt ∧ prec .bol t = .gt ∧
    prec .eol t = .gt ∧ prec .closeparen t = .gt := by
  rcases h with h | h
  · rcases h with rfl | rfl | rfl | rfl | rfl | rfl | rfl <;> decide
  · rcases h with rfl | rfl | rfl | rfl | rfl | rfl | rfl | rfl <;> decide

theorem FolItem.gt {t : TT} (h : FolItem t) : prec .repeat_ t = .gt ∧ prec .dup t = .gt ∧
    prec .expression t = .gt ∧ ∀ d, Dup d → prec d t = .gt := by
  rcases h with rfl | rfl | rfl | rfl | rfl | rfl | rfl <;>
    refine ⟨rfl, rfl, rfl, fun d hd => ?_⟩ <;>
    rcases hd with rfl | rfl | rfl | rfl | rfl | rfl | rfl | rfl <;> rfl

theorem Dup.lt {d : TT} (h : Dup d) : prec .repeat_ d = .lt := by
  rcases h with rfl | rfl | rfl | rfl | rfl | rfl | rfl | rfl <;> rfl

theorem FolAlt.item {t : TT} (h : FolAlt t) : FolItem t := by
  rcases h with rfl | rfl | rfl <;> simp [FolItem]

theorem FolAlt.gt {t : TT} (h : FolAlt t) : prec .sub t = .gt ∧ prec .sequence t = .gt := by
  rcases h with rfl | rfl | rfl <;> decide

theorem Start.item {t : TT} (h : Start t) : FolItem t := by
  rcases h with rfl | rfl | rfl | rfl <;> simp [FolItem]

theorem reduce_pop1 (tr : Traits) (p : PState) (t x : Tok) (s : List Tok)
    (h : prec x.type t.type = .lt) : p.reduce tr (t :: x :: s) =
      (do let r ← p.reduceHandle tr [t]; .ok (r.1, r.2 ++ x :: s)) := by
  simp only [reduce, popHandle, h, bind, Except.bind]

theorem reduce_pop2 (tr : Traits) (p : PState) (t u x : Tok) (s : List Tok)
    (h1 : prec u.type t.type = .eq) (h : prec x.type u.type = .lt) :
    p.reduce tr (t :: u :: x :: s) =
      (do let r ← p.reduceHandle tr [u, t]; .ok (r.1, r.2 ++ x :: s)) := by
  simp only [reduce, popHandle, h1, h, bind, Except.bind]

theorem reduce_pop3 (tr : Traits) (p : PState) (t u v x : Tok) (s : List Tok)
    (h1 : prec u.type t.type = .eq) (h2 : prec v.type u.type = .eq) (h : prec x.type v.type = .lt) :
    p.reduce tr (t :: u :: v :: x :: s) =
      (do let r ← p.reduceHandle tr [v, u, t]; .ok (r.1, r.2 ++ x :: s)) := by
  simp only [reduce, popHandle, h1, h2, h, bind, Except.bind]

/-- One reduction that pops a single token and leaves the trees alone. -/
theorem loop_unit (tr : Traits) (k : Nat) (p : PState) (a b : TT) (x : Tok) (s : List Tok) (f : Tok)
    (us : List Tok) (h1 : prec a f.type = .gt) (h2 : prec x.type a = .lt)
    (h3 : p.reduceHandle tr [newTok a] = .ok (p, [newTok b])) :
    loop tr (k + 1) p (newTok a :: x :: s) (f :: us) = loop tr k p (newTok b :: x :: s) (f :: us) := by
  rw [loop_reduce tr k p (newTok a) (x :: s) f us h1, reduce_pop1 tr p (newTok a) x s h2, h3]
  rfl

theorem bind_congr {α β : Type} {m : M α} {f g : α → M β} (h : ∀ a, m = .ok a → f a = g a) :
    m.bind f = m.bind g := by
  cases m with
  | error e => rfl
  | ok a => exact h a rfl

theorem derives_parses (tr : Traits) {l : Level} {ts : List Tok} {r : Re} (h : Derives l ts r) :
    Parses tr l ts r := by
  induction h with
  | charset e s =>
    by_cases hc : tr.compressed = true
    · refine ⟨3, by simp, fun x hx f hf k p st us => ?_⟩
      rw [show k + 3 = k + 2 + 1 from rfl, List.singleton_append,
        loop_shift tr _ p x st _ f us (.inl hx.lt.1), show k + 2 = k + 1 + 1 from rfl,
        loop_reduce tr _ p ⟨.charset, e, s⟩ _ f us hf.gt.1, reduce_pop1 _ _ _ _ _ hx.lt.1]
      simp only [reduceHandle, List.map, hc, if_true, act, bind, Except.bind]
      cases p.pushRows tr (sliceToken tr.char24 s) with
      | error e => rfl
      | ok p' =>
        show loop tr (k + 1) p' (newTok .closeparen :: newTok .regex :: newTok .openparen :: x :: st) _ = _
        rw [loop_reduce tr _ _ _ _ f us hf.gt.2.2.2, reduce_pop3 _ _ _ _ _ _ _ rfl rfl hx.lt.2.2.2.1]
        rfl
    · refine ⟨2, by simp, fun x hx f hf k p st us => ?_⟩
      rw [show k + 2 = k + 1 + 1 from rfl, List.singleton_append,
        loop_shift tr _ p x st _ f us (.inl hx.lt.1),
        loop_reduce tr _ p ⟨.charset, e, s⟩ _ f us hf.gt.1, reduce_pop1 _ _ _ _ _ hx.lt.1]
      simp only [reduceHandle, List.map, if_neg hc, act, bind, Except.bind]
      rfl
  | bol e s =>
    refine ⟨2, by simp, fun x hx f hf k p st us => ?_⟩
    rw [show k + 2 = k + 1 + 1 from rfl, List.singleton_append,
      loop_shift tr _ p x st _ f us (.inl hx.lt.2.1),
      loop_reduce tr _ p ⟨.bol, e, s⟩ _ f us hf.gt.2.1, reduce_pop1 _ _ _ _ _ hx.lt.2.1]
    rfl
  | eol e s =>
    refine ⟨2, by simp, fun x hx f hf k p st us => ?_⟩
    rw [show k + 2 = k + 1 + 1 from rfl, List.singleton_append,
      loop_shift tr _ p x st _ f us (.inl hx.lt.2.2.1),
      loop_reduce tr _ p ⟨.eol, e, s⟩ _ f us hf.gt.2.2.1, reduce_pop1 _ _ _ _ _ hx.lt.2.2.1]
    rfl
  | paren o c ts r ho hc hd ih =>
    obtain ⟨n, hn, ih⟩ := ih
    refine ⟨n + 4, by simp; omega, fun x hx f hf k p st us => ?_⟩
    have hlt : prec x.type o.type = .lt := by rw [ho]; exact hx.lt.2.2.2.1
    obtain ⟨t, vs, rfl, _⟩ := derives_start hd
    have hsh := loop_shift tr (k + 3 + n) p x st o t (vs ++ c :: f :: us) (.inl hlt)
    simp only [List.cons_append, List.append_assoc, List.nil_append] at ih ⊢
    rw [show k + (n + 4) = k + 3 + n + 1 from by omega, hsh]
    rw [ih o (.inr ho) c (.inr (.inl hc)) (k + 3) p (x :: st) (f :: us)]
    refine bind_congr fun p' _ => ?_
    rw [show k + 3 = k + 2 + 1 from rfl, loop_unit tr _ p' .orexp .regex o _ c _
      (by rw [hc]; rfl) (by rw [ho]; rfl) rfl,
      show k + 2 = k + 1 + 1 from rfl, loop_shift tr _ p' _ _ c f us (.inr (by rw [hc]; rfl)),
      loop_reduce tr _ p' c _ f us (by rw [hc]; exact hf.gt.2.2.2),
      reduce_pop3 _ _ _ _ _ _ _ (by rw [hc]; rfl) (by rw [ho]; rfl) hlt]
    simp only [reduceHandle, List.map, ho, hc, newTok, bind, Except.bind]
    rfl
  | item ts r hd ih =>
    obtain ⟨n, hn, ih⟩ := ih
    refine ⟨n + 1, by omega, fun x hx f hf k p st us => ?_⟩
    rw [show k + (n + 1) = k + 1 + n from by omega, ih x hx f (.inl hf)]
    refine bind_congr fun p' _ => ?_
    exact loop_unit tr k p' .repeat_ .expression x st f us hf.gt.1 hx.lt.2.2.2.2 rfl
  | postfix_ ts r d q hd hp ih =>
    obtain ⟨n, hn, ih⟩ := ih
    obtain ⟨hdup, hred⟩ := postfix_reduce tr hp
    refine ⟨n + 4, by simp; omega, fun x hx f hf k p st us => ?_⟩
    simp only [List.append_assoc, List.singleton_append]
    rw [show k + (n + 4) = k + 4 + n from by omega, ih x hx d (.inr hdup)]
    have hq : act tr q p = (act tr r p).bind fun _ => act tr q p := by
      cases h : act tr r p with
      | ok a => rfl
      | error e => cases hp <;> simp only [act, h, bind, Except.bind]
    rw [hq]
    cases h : act tr r p with
    | error e => rfl
    | ok p' =>
      simp only [bind, Except.bind]
      rw [show k + 4 = k + 3 + 1 from rfl, loop_shift tr _ p' _ _ d f us (.inl hdup.lt),
        show k + 3 = k + 2 + 1 from rfl, loop_reduce tr _ p' d _ f us (hf.gt.2.2.2 _ hdup),
        reduce_pop1 _ _ _ _ _ hdup.lt, hred p p' h]
      cases act tr q p with
      | error e => rfl
      | ok p2 =>
        show loop tr (k + 2) p2 (newTok .dup :: newTok .repeat_ :: x :: st) _ = _
        rw [show k + 2 = k + 1 + 1 from rfl, loop_reduce tr _ p2 _ _ f us hf.gt.2.1,
          reduce_pop2 _ _ _ _ _ _ rfl hx.lt.2.2.2.2]
        show loop tr (k + 1) p2 (newTok .repeat_ :: x :: st) _ = _
        exact loop_unit tr k p2 .repeat_ .expression x st f us hf.gt.1 hx.lt.2.2.2.2 rfl
  | seq1 ts r hd ih =>
    obtain ⟨n, hn, ih⟩ := ih
    refine ⟨n + 1, by omega, fun x hx f hf k p st us => ?_⟩
    rw [show k + (n + 1) = k + 1 + n from by omega, ih x hx.atom f hf]
    refine bind_congr fun p' _ => ?_
    exact loop_unit tr k p' .expression .sub x st f us hf.gt.2.2.1 hx.lt.1 rfl
  | seq ts vs l r hl hr ihl ihr =>
    obtain ⟨n, hn, ihl⟩ := ihl
    obtain ⟨m, hm, ihr⟩ := ihr
    refine ⟨n + (m + 1), by simp; omega, fun x hx f hf k p st us => ?_⟩
    obtain ⟨t, ws, rfl, ht⟩ := derives_start hr
    have e1 := ihl x hx t ht.item (k + 1 + m) p st (ws ++ f :: us)
    simp only [List.append_assoc, List.cons_append] at e1 ihr ⊢
    rw [show k + (n + (m + 1)) = k + 1 + m + n from by omega, e1]
    simp only [act, bind, Except.bind]
    cases act tr l p with
    | error e => rfl
    | ok p1 =>
      simp only
      rw [ihr (newTok .sub) (.inr (.inr (.inr rfl))) f hf]
      cases act tr r p1 with
      | error e => rfl
      | ok p2 =>
        simp only [bind, Except.bind]
        rw [loop_reduce tr _ p2 _ _ f us hf.gt.2.2.1, reduce_pop2 _ _ _ _ _ _ rfl hx.lt.2]
        simp only [reduceHandle, List.map, newTok, bind, Except.bind]
        cases p2.sequence <;> rfl
  | alt1 ts r hd ih =>
    obtain ⟨n, hn, ih⟩ := ih
    refine ⟨n + 2, by omega, fun x hx f hf k p st us => ?_⟩
    rw [show k + (n + 2) = k + 2 + n from by omega, ih x hx.seq f hf.item]
    refine bind_congr fun p' _ => ?_
    rw [show k + 2 = k + 1 + 1 from rfl,
      loop_unit tr _ p' .sub .sequence x st f us hf.gt.1 hx.seq.lt.2 rfl]
    exact loop_unit tr k p' .sequence .orexp x st f us hf.gt.2 hx.lt.1 rfl
  | alt ts vs o l r ho hl hr ihl ihr =>
    obtain ⟨n, hn, ihl⟩ := ihl
    obtain ⟨m, hm, ihr⟩ := ihr
    refine ⟨n + (m + 3), by simp; omega, fun x hx f hf k p st us => ?_⟩
    obtain ⟨t, ws, rfl, ht⟩ := derives_start hr
    have e1 := ihl x hx o (.inl ho) (k + 2 + m + 1) p st (t :: (ws ++ f :: us))
    simp only [List.append_assoc, List.cons_append] at e1 ihr ⊢
    rw [show k + (n + (m + 3)) = k + 2 + m + 1 + n from by omega, e1]
    simp only [act, bind, Except.bind]
    cases act tr l p with
    | error e => rfl
    | ok p1 =>
      simp only
      rw [loop_shift tr _ p1 (newTok .orexp) _ o t _ (.inr (by rw [ho]; rfl)),
        ihr o (.inr (.inr ho)) f hf.item]
      cases act tr r p1 with
      | error e => rfl
      | ok p2 =>
        simp only [bind, Except.bind]
        rw [show k + 2 = k + 1 + 1 from rfl,
          loop_unit tr _ p2 .sub .sequence o _ f us hf.gt.1 (by rw [ho]; rfl) rfl,
          loop_reduce tr _ p2 _ _ f us hf.gt.2,
          reduce_pop3 _ _ _ _ _ _ _ (by rw [ho]; rfl) (by rw [ho]; rfl) hx.lt.2]
        simp only [reduceHandle, List.map, newTok, ho, bind, Except.bind]
        cases p2.performOr <;> rfl

/-- Parsing `BEGIN ts END` performs the actions of the derived expression. -/
theorem parseLoop_derives (tr : Traits) (ts : List Tok) (r : Re) (h : Derives .alt ts r) (b e : Tok)
    (hb : b.type = .begin) (he : e.type = .end_) (p : PState) (fuel : Nat)
    (hf : 10 * ts.length + 3 ≤ fuel) : loop tr fuel p [b] (ts ++ [e]) = act tr r p := by
  obtain ⟨n, hn, hp⟩ := derives_parses tr h
  have e1 := hp b (.inl hb) e (.inr (.inr he)) (fuel - n - 4 + 4) p [] []
  rw [show fuel = fuel - n - 4 + 4 + n from by omega, e1]
  cases act tr r p with
  | error _ => rfl
  | ok p' =>
    show loop tr _ p' [newTok .orexp, b] [e] = _
    rw [show fuel - n - 4 + 4 = fuel - n - 4 + 3 + 1 from rfl,
      loop_unit tr _ p' .orexp .regex b _ e _ (by rw [he]; rfl) (by rw [hb]; rfl) rfl,
      loop_reduce tr _ p' _ _ e [] (by rw [he]; rfl), reduce_pop1 _ _ _ _ _ (by rw [hb]; rfl)]
    show loop tr _ p' [b] [e] = _
    rw [loop_reduce tr _ p' _ _ e [] (by rw [hb, he]; rfl)]
    simp only [reduce, popHandle, reduceHandle, List.map, hb, bind, Except.bind, List.append_nil]
    simp only [loop, parseLoop]

end PState
end Lexertl
