import Verif.Proofs.JsonSteps

/-
The JSON example and the grammar of JSON.
-/
namespace Lexertl.Json
open Spec Spec.Json Reading Props

/-! ### Where tokens end -/

def Form.Follow : Form → List Nat → Prop
  | .num, w => ∀ c, w.head? = some c → ¬ NumChar c
  | .ws, w => ∀ c, w.head? = some c → ¬ (c = 32 ∨ c = 9 ∨ c = 13 ∨ c = 10)
  | _, _ => True

theorem stop_len {P : Nat → Prop} {v w v' w' : List Nat} (hu : v ++ w = v' ++ w') (hf : ∀ c, w.head? = some c → ¬ P c) (hv : ∀ c ∈ v', P c) :
    v'.length ≤ v.length := by
  rcases List.append_eq_append_iff.1 hu with ⟨x, h1, h2⟩ | ⟨x, h1, h2⟩
  · cases x with
    | nil => rw [h1]; simp
    | cons c x =>
      refine absurd (hv c (by rw [h1]; simp)) (hf c ?_)
      rw [h2]; rfl
  · rw [h1]; simp

theorem longest {f : Form} {v w v' w' : List Nat} (h : f.Texts v) (hf : f.Follow w) (hu : v ++ w = v' ++ w') (h' : f.Texts v') :
    v'.length ≤ v.length := by
  cases f with
  | str => rw [str_prefix h h' hu]; exact Nat.le_refl _
  | num => exact stop_len hu hf (num_chars h')
  | bool =>
    rcases h with rfl | rfl <;> rcases h' with rfl | rfl <;> simp at hu <;> simp
  | null => rw [h, h']; exact Nat.le_refl _
  | ch c => rw [h, h']; exact Nat.le_refl _
  | ws => exact stop_len hu hf h'.2

theorem takes {st : Nat} {e : Entry} (he : e ∈ row st) {v w : List Nat} (h : e.form.Texts v) (hf : e.form.Follow w) : Takes (row st) e v w := by
  refine ⟨he, h, fun e' he' v' w' hu h' => ?_⟩
  obtain ⟨i, hi⟩ := List.getElem?_of_mem he
  obtain ⟨j, hj⟩ := List.getElem?_of_mem he'
  have := same_rule hi hj rfl hu h h'
  subst this
  rw [hi] at hj
  cases hj
  exact longest h hf hu h'

/-! ### From documents to the program -/

def tok (l : Line) : Spec.Json.Tok := (l.id, l.token)

/-- From one configuration to another. -/
def Path (st : Nat) (k : List (Nat × Nat)) (u : List Nat) (st' : Nat) (k' : List (Nat × Nat)) (u' : List Nat) (ts : List Spec.Json.Tok) : Prop :=
  ∀ ls n, Steps st' k' u' ls n → ∃ ls', Steps st k u (ls' ++ ls) n ∧ ls'.map tok = ts

theorem Path.refl (st : Nat) (k : List (Nat × Nat)) (u : List Nat) : Path st k u st k u [] := fun _ _ h => ⟨[], h, rfl⟩

theorem Path.trans {st st' st'' : Nat} {k k' k'' : List (Nat × Nat)} {u u' u'' : List Nat} {ts ts' : List Spec.Json.Tok} (h : Path st k u st' k' u' ts)
    (h' : Path st' k' u' st'' k'' u'' ts') : Path st k u st'' k'' u'' (ts ++ ts') := by
  intro ls n g
  obtain ⟨l1, g1, e1⟩ := h' ls n g
  obtain ⟨l2, g2, e2⟩ := h _ n g1
  exact ⟨l2 ++ l1, by rw [List.append_assoc]; exact g2, by rw [List.map_append, e1, e2]⟩

theorem path_skip {st : Nat} {e : Entry} (he : e ∈ row st) (hid : e.id = 65534) {v : List Nat} (h : e.form.Texts v) (k : List (Nat × Nat)) {w : List Nat}
    (hf : e.form.Follow w) : Path st k (v ++ w) e.next k w [] :=
  fun ls n g => ⟨[], .skip st k e v w ls n (takes he h hf) hid g, rfl⟩

theorem path_token {st : Nat} {e : Entry} (he : e ∈ row st) (hid : e.id ≠ 65534) (hp : e.pop = false) {v : List Nat} (h : e.form.Texts v)
    (k : List (Nat × Nat)) {w : List Nat} (hf : e.form.Follow w) :
    Path st k (v ++ w) e.next (if e.push = 65535 then k else (e.push, e.id) :: k) w [(e.id, shown e.id v)] :=
  fun ls n g => ⟨[_], .token st k e v w ls n (takes he h hf) hid hp g, rfl⟩

theorem path_pop {st : Nat} {e : Entry} (he : e ∈ row st) (hid : e.id ≠ 65534) (hp : e.pop = true) {v : List Nat} (h : e.form.Texts v)
    (x : Nat × Nat) (k : List (Nat × Nat)) {w : List Nat} (hf : e.form.Follow w) :
    Path st (x :: k) (v ++ w) x.1 k w [(e.id, shown e.id v)] :=
  fun ls n g => ⟨[_], .pop st x k e v w ls n (takes he h hf) hid hp g, rfl⟩

theorem path_ws {st : Nat} (hst : st < 10) {s : List Nat} (hs : Ws s) (k : List (Nat × Nat)) {u : List Nat}
    (hu : Form.ws.Follow u) : Path st k (s ++ u) st k u [] := by
  have hm : ∀ st < 10, ews st ∈ row st := by decide
  cases s with
  | nil => exact .refl _ _ _
  | cons c s => exact path_skip (hm st hst) rfl (v := c :: s) ⟨by simp, hs⟩ k hu

theorem follow_cons {c : Nat} {w : List Nat} (h : ¬ (c = 32 ∨ c = 9 ∨ c = 13 ∨ c = 10)) : Form.ws.Follow (c :: w) := by
  intro d hd
  cases hd
  exact h

theorem txt_head {v : List Nat} {ts : List Spec.Json.Tok} (h : Txt .value v ts) (w : List Nat) : Form.ws.Follow (v ++ w) := by
  cases h with
  | number _ h =>
    obtain ⟨c, x, rfl, h⟩ := num_head h
    exact follow_cons (by omega)
  | _ => exact follow_cons (by decide)

/-- The lexer state after a value. -/
def aft (st : Nat) : Nat := if st = 5 then 6 else 8

def NoNum (u : List Nat) : Prop := ∀ c, u.head? = some c → ¬ NumChar c

theorem noNum_ws {s : List Nat} (hs : Ws s) {u : List Nat} (hu : NoNum u) : NoNum (s ++ u) := by
  cases s with
  | nil => exact hu
  | cons c s =>
    intro d hd
    cases hd
    have := hs c (by simp)
    unfold NumChar
    omega

theorem noNum_cons {c : Nat} {u : List Nat} (h : ¬ NumChar c) : NoNum (c :: u) := by
  intro d hd
  cases hd
  exact h

/-- The shape of what is shown for a kind of text. -/
def Goal : Kind → List Nat → List Spec.Json.Tok → Prop
  | .value, v, ts => ∀ st, st = 5 ∨ st = 7 ∨ st = 9 → ∀ k u, NoNum u → Path st k (v ++ u) (aft st) k u ts
  | .members, w, ts => ∀ st, st = 2 ∨ st = 3 → ∀ k u, Path st k (w ++ 125 :: u) 6 k (125 :: u) ts
  | .elements, w, ts => ∀ st, st = 7 ∨ st = 9 → ∀ k u, Path st k (w ++ 93 :: u) 8 k (93 :: u) ts

theorem scalar_path {f : Form} {id : Nat} (hid : id ≠ 65534) (hm : ∀ st, st = 5 ∨ st = 7 ∨ st = 9 → (⟨f, id, aft st, 65535, false⟩ : Entry) ∈ row st)
    {v : List Nat} (h : f.Texts v) (hf : ∀ u, NoNum u → f.Follow u) : Goal .value v [(id, shown id v)] :=
  fun st hst k _ hu => path_token (hm st hst) hid rfl h k (hf _ hu)

theorem close_ob {st : Nat} (hst : st = 2 ∨ st = 6) (x : Nat × Nat) (k : List (Nat × Nat)) (u : List Nat) :
    Path st (x :: k) (125 :: u) x.1 k u [(6, [125])] :=
  path_pop (e := ⟨.ch 125, 6, 65535, 65535, true⟩) (by rcases hst with rfl | rfl <;> decide) (by decide) rfl (v := [125]) rfl x k trivial

theorem close_arr {st : Nat} (hst : st = 7 ∨ st = 8) (x : Nat × Nat) (k : List (Nat × Nat)) (u : List Nat) :
    Path st (x :: k) (93 :: u) x.1 k u [(8, [93])] :=
  path_pop (e := ⟨.ch 93, 8, 65535, 65535, true⟩) (by rcases hst with rfl | rfl <;> decide) (by decide) rfl (v := [93]) rfl x k trivial

/-- The states in which a value may start, with the state after it. -/
def Opens (st a : Nat) : Prop := (st = 0 ∧ a = 1) ∨ (st = 5 ∧ a = 6) ∨ (st = 7 ∧ a = 8) ∨ (st = 9 ∧ a = 8)

theorem open_ob {st a : Nat} (h : Opens st a) (k : List (Nat × Nat)) (u : List Nat) : Path st k (123 :: u) 2 ((a, 4) :: k) u [(4, [123])] := by
  have : (⟨.ch 123, 4, 2, a, false⟩ : Entry) ∈ row st ∧ a ≠ 65535 := by
    rcases h with ⟨rfl, rfl⟩ | ⟨rfl, rfl⟩ | ⟨rfl, rfl⟩ | ⟨rfl, rfl⟩ <;> decide
  have h := path_token this.1 (by simp) rfl (v := [123]) rfl k (w := u) trivial
  simpa [this.2, shown] using h

theorem open_arr {st a : Nat} (h : Opens st a) (k : List (Nat × Nat)) (u : List Nat) : Path st k (91 :: u) 7 ((a, 7) :: k) u [(7, [91])] := by
  have : (⟨.ch 91, 7, 7, a, false⟩ : Entry) ∈ row st ∧ a ≠ 65535 := by
    rcases h with ⟨rfl, rfl⟩ | ⟨rfl, rfl⟩ | ⟨rfl, rfl⟩ | ⟨rfl, rfl⟩ <;> decide
  have h := path_token this.1 (by simp) rfl (v := [91]) rfl k (w := u) trivial
  simpa [this.2, shown] using h

theorem object_path {st a : Nat} (h : Opens st a) (k : List (Nat × Nat)) (u : List Nat) {w : List Nat} {ts : List Spec.Json.Tok} (hw : Goal .members w ts) :
    Path st k (123 :: w ++ [125] ++ u) a k u ((4, [123]) :: ts ++ [(6, [125])]) := by
  have e : 123 :: w ++ [125] ++ u = 123 :: (w ++ 125 :: u) := by simp
  rw [e]
  exact ((open_ob h k _).trans (hw 2 (.inl rfl) _ u)).trans (close_ob (.inr rfl) (a, 4) k u)

theorem noMembers_path {st a : Nat} (h : Opens st a) (k : List (Nat × Nat)) (u : List Nat) {s : List Nat} (hs : Ws s) :
    Path st k (123 :: s ++ [125] ++ u) a k u [(4, [123]), (6, [125])] := by
  have e : 123 :: s ++ [125] ++ u = 123 :: (s ++ 125 :: u) := by simp
  rw [e]
  exact ((open_ob h k _).trans (path_ws (by decide) hs _ (follow_cons (by decide)))).trans (close_ob (.inl rfl) (a, 4) k u)

theorem array_path {st a : Nat} (h : Opens st a) (k : List (Nat × Nat)) (u : List Nat) {w : List Nat} {ts : List Spec.Json.Tok} (hw : Goal .elements w ts) :
    Path st k (91 :: w ++ [93] ++ u) a k u ((7, [91]) :: ts ++ [(8, [93])]) := by
  have e : 91 :: w ++ [93] ++ u = 91 :: (w ++ 93 :: u) := by simp
  rw [e]
  exact ((open_arr h k _).trans (hw 7 (.inl rfl) _ u)).trans (close_arr (.inr rfl) (a, 7) k u)

theorem noElements_path {st a : Nat} (h : Opens st a) (k : List (Nat × Nat)) (u : List Nat) {s : List Nat} (hs : Ws s) :
    Path st k (91 :: s ++ [93] ++ u) a k u [(7, [91]), (8, [93])] := by
  have e : 91 :: s ++ [93] ++ u = 91 :: (s ++ 93 :: u) := by simp
  rw [e]
  exact ((open_arr h k _).trans (path_ws (by decide) hs _ (follow_cons (by decide)))).trans (close_arr (.inl rfl) (a, 7) k u)

theorem opens_aft {st : Nat} (h : st = 5 ∨ st = 7 ∨ st = 9) : Opens st (aft st) := by
  rcases h with rfl | rfl | rfl <;> unfold Opens aft <;> decide

theorem member_path {s b t u v ts x} (hs : Ws s) (hb : StrBody b) (ht : Ws t) (hu : Ws u) (hv : Txt .value v ts) (gv : Goal .value v ts) (hx : Ws x)
    {st : Nat} (hst : st = 2 ∨ st = 3) (k : List (Nat × Nat)) {c : Nat} (hc : ¬ NumChar c) (hc' : ¬ (c = 32 ∨ c = 9 ∨ c = 13 ∨ c = 10)) (y : List Nat) :
    Path st k (s ++ (34 :: b ++ [34]) ++ t ++ 58 :: u ++ v ++ x ++ c :: y) 6 k (c :: y) ((5, 34 :: b ++ [34]) :: ts) := by
  have e : s ++ (34 :: b ++ [34]) ++ t ++ 58 :: u ++ v ++ x ++ c :: y = s ++ ((34 :: b ++ [34]) ++ (t ++ (58 :: (u ++ (v ++ (x ++ c :: y)))))) := by simp
  rw [e]
  have h1 : Path st k (s ++ ((34 :: b ++ [34]) ++ (t ++ (58 :: (u ++ (v ++ (x ++ c :: y))))))) st k _ [] :=
    path_ws (by omega) hs k (follow_cons (by decide))
  have h2 : Path st k ((34 :: b ++ [34]) ++ (t ++ (58 :: (u ++ (v ++ (x ++ c :: y)))))) 4 k _ [(5, 34 :: b ++ [34])] :=
    path_token (e := ⟨.str, 5, 4, 65535, false⟩) (by rcases hst with rfl | rfl <;> decide) (by decide) rfl ⟨b, hb, rfl⟩ k trivial
  have h3 : Path 4 k (t ++ (58 :: (u ++ (v ++ (x ++ c :: y))))) 4 k _ [] := path_ws (by decide) ht k (follow_cons (by decide))
  have h4 : Path 4 k (58 :: (u ++ (v ++ (x ++ c :: y)))) 5 k _ [] :=
    path_skip (e := ⟨.ch 58, 65534, 5, 65535, false⟩) (by decide) rfl (v := [58]) rfl k trivial
  have h5 : Path 5 k (u ++ (v ++ (x ++ c :: y))) 5 k _ [] := path_ws (by decide) hu k (txt_head hv _)
  have h6 : Path 5 k (v ++ (x ++ c :: y)) 6 k _ ts := gv 5 (.inl rfl) k _ (noNum_ws hx (noNum_cons hc))
  have h7 : Path 6 k (x ++ c :: y) 6 k _ [] := path_ws (by decide) hx k (follow_cons hc')
  have := (((((h1.trans h2).trans h3).trans h4).trans h5).trans h6).trans h7
  simpa using this

theorem element_path {s v ts x} (hs : Ws s) (hv : Txt .value v ts) (gv : Goal .value v ts) (hx : Ws x)
    {st : Nat} (hst : st = 7 ∨ st = 9) (k : List (Nat × Nat)) {c : Nat} (hc : ¬ NumChar c) (hc' : ¬ (c = 32 ∨ c = 9 ∨ c = 13 ∨ c = 10)) (y : List Nat) :
    Path st k (s ++ v ++ x ++ c :: y) 8 k (c :: y) ts := by
  have e : s ++ v ++ x ++ c :: y = s ++ (v ++ (x ++ c :: y)) := by simp
  rw [e]
  have h1 : Path st k (s ++ (v ++ (x ++ c :: y))) st k _ [] := path_ws (by omega) hs k (txt_head hv _)
  have h2 : Path st k (v ++ (x ++ c :: y)) 8 k (x ++ c :: y) ts := by
    have := gv st (.inr hst) k _ (noNum_ws hx (noNum_cons (u := y) hc))
    rwa [show aft st = 8 from if_neg (by omega)] at this
  have h3 : Path 8 k (x ++ c :: y) 8 k _ [] := path_ws (by decide) hx k (follow_cons hc')
  have := (h1.trans h2).trans h3
  simpa using this

theorem txt_goal {kd : Kind} {w : List Nat} {ts : List Spec.Json.Tok} (h : Txt kd w ts) : Goal kd w ts := by
  induction h with
  | string b h =>
    have := scalar_path (f := .str) (id := 1) (by decide) (by rintro st (rfl | rfl | rfl) <;> decide) ⟨b, h, rfl⟩ (fun _ _ => trivial)
    simpa [shown] using this
  | number w h => exact scalar_path (f := .num) (id := 2) (by decide) (by rintro st (rfl | rfl | rfl) <;> decide) h (fun _ h => h)
  | true => exact scalar_path (f := .bool) (id := 3) (by decide) (by rintro st (rfl | rfl | rfl) <;> decide) (.inl rfl) (fun _ h => trivial)
  | false => exact scalar_path (f := .bool) (id := 3) (by decide) (by rintro st (rfl | rfl | rfl) <;> decide) (.inr rfl) (fun _ h => trivial)
  | null => exact scalar_path (f := .null) (id := 9) (by decide) (by rintro st (rfl | rfl | rfl) <;> decide) rfl (fun _ h => trivial)
  | noMembers s hs => exact fun st hst k u _ => noMembers_path (opens_aft hst) k u hs
  | object w ts _ ih => exact fun st hst k u _ => object_path (opens_aft hst) k u ih
  | noElements s hs => exact fun st hst k u _ => noElements_path (opens_aft hst) k u hs
  | array w ts _ ih => exact fun st hst k u _ => array_path (opens_aft hst) k u ih
  | member s b t u v ts x hs hb ht hu hv hx ih =>
    exact fun st hst k y => member_path hs hb ht hu hv ih hx hst k (by unfold NumChar; decide) (by decide) y
  | moreMembers s b t u v ts x w ts' hs hb ht hu hv hx _ ih ih' =>
    intro st hst k y
    have h1 := member_path hs hb ht hu hv ih hx hst k (c := 44) (by unfold NumChar; decide) (by decide) (w ++ 125 :: y)
    have h2 : Path 6 k (44 :: (w ++ 125 :: y)) 3 k _ [] :=
      path_skip (e := ⟨.ch 44, 65534, 3, 65535, false⟩) (by decide) rfl (v := [44]) rfl k trivial
    have := (h1.trans h2).trans (ih' 3 (.inr rfl) k y)
    simpa using this
  | element s v ts x hs hv hx ih =>
    exact fun st hst k y => element_path hs hv ih hx hst k (by unfold NumChar; decide) (by decide) y
  | moreElements s v ts x w ts' hs hv hx _ ih ih' =>
    intro st hst k y
    have h1 := element_path hs hv ih hx hst k (c := 44) (by unfold NumChar; decide) (by decide) (w ++ 93 :: y)
    have h2 : Path 8 k (44 :: (w ++ 93 :: y)) 9 k _ [] :=
      path_skip (e := ⟨.ch 44, 65534, 9, 65535, false⟩) (by decide) rfl (v := [44]) rfl k trivial
    have := (h1.trans h2).trans (ih' 9 (.inr rfl) k y)
    simpa using this

theorem document_steps {w : List Nat} {ts : List Spec.Json.Tok} (h : Document w ts) : ∃ ls, Steps 0 [] w ls 0 ∧ ls.map tok = ts := by
  obtain ⟨s, v, t, hs, ht, hh, hv, rfl⟩ := h
  have h1 : Path 0 [] (s ++ (v ++ t)) 0 [] (v ++ t) [] := path_ws (by decide) hs [] (txt_head hv t)
  have h3 : Path 1 [] (t ++ []) 1 [] [] [] := path_ws (by decide) ht [] (fun c hc => by cases hc)
  rw [List.append_nil] at h3
  have ho : Opens 0 1 := .inl ⟨rfl, rfl⟩
  have h2 : Path 0 [] (v ++ t) 1 [] t ts := by
    cases hv with
    | noMembers _ g => exact noMembers_path ho [] t g
    | noElements _ g => exact noElements_path ho [] t g
    | object w ts g => exact object_path ho [] t (txt_goal g)
    | array w ts g => exact array_path ho [] t (txt_goal g)
    | number _ g =>
      obtain ⟨c, x, rfl, g⟩ := num_head g
      simp only [List.head?_cons, Option.some.injEq] at hh
      omega
    | _ => simp at hh
  obtain ⟨ls, g1, g2⟩ := ((h1.trans h2).trans h3) [] 0 (.eoi 1 [])
  rw [List.append_nil] at g1
  rw [← List.append_assoc] at g1
  exact ⟨ls, g1, by simpa using g2⟩

/-! ### From the program to documents -/

/-- The rest of the members, after a comma, with the closing brace. -/
def P3 (a : List Nat) (ts : List Spec.Json.Tok) : Prop := ∃ w ts', Txt .members w ts' ∧ a = w ++ [125] ∧ ts = ts' ++ [(6, [125])]
def P2 (a : List Nat) (ts : List Spec.Json.Tok) : Prop := P3 a ts ∨ ∃ s, Ws s ∧ a = s ++ [125] ∧ ts = [(6, [125])]
def P6 (a : List Nat) (ts : List Spec.Json.Tok) : Prop :=
  ∃ x, Ws x ∧ ((a = x ++ [125] ∧ ts = [(6, [125])]) ∨ ∃ a', a = x ++ 44 :: a' ∧ P3 a' ts)
def P5 (a : List Nat) (ts : List Spec.Json.Tok) : Prop :=
  ∃ u v tv a' ts', Ws u ∧ Txt .value v tv ∧ P6 a' ts' ∧ a = u ++ v ++ a' ∧ ts = tv ++ ts'
def P4 (a : List Nat) (ts : List Spec.Json.Tok) : Prop := ∃ t a', Ws t ∧ P5 a' ts ∧ a = t ++ 58 :: a'
/-- The rest of the elements, after a comma, with the closing bracket. -/
def P9 (a : List Nat) (ts : List Spec.Json.Tok) : Prop := ∃ w ts', Txt .elements w ts' ∧ a = w ++ [93] ∧ ts = ts' ++ [(8, [93])]
def P7 (a : List Nat) (ts : List Spec.Json.Tok) : Prop := P9 a ts ∨ ∃ s, Ws s ∧ a = s ++ [93] ∧ ts = [(8, [93])]
def P8 (a : List Nat) (ts : List Spec.Json.Tok) : Prop :=
  ∃ x, Ws x ∧ ((a = x ++ [93] ∧ ts = [(8, [93])]) ∨ ∃ a', a = x ++ 44 :: a' ∧ P9 a' ts)

/-- The text from a state on, up to the end of the object or array. -/
def Piece : Nat → List Nat → List Spec.Json.Tok → Prop
  | 2 => P2
  | 3 => P3
  | 4 => P4
  | 5 => P5
  | 6 => P6
  | 7 => P7
  | 8 => P8
  | 9 => P9
  | _ => fun _ _ => False

/-- The text from a state with its stack on, up to the end. -/
def Acc : Nat → List (Nat × Nat) → List Nat → List Spec.Json.Tok → Prop
  | st, [], u, ts => (Ws u ∧ ts = []) ∨ (st = 0 ∧ Document u ts)
  | st, x :: k, u, ts => ∃ a b ts1 ts2, Piece st a ts1 ∧ Acc x.1 k b ts2 ∧ u = a ++ b ∧ ts = ts1 ++ ts2

theorem Ws.append {s t : List Nat} (hs : Ws s) (ht : Ws t) : Ws (s ++ t) := by
  intro c hc
  rcases List.mem_append.1 hc with h | h
  · exact hs c h
  · exact ht c h

theorem members_ws {v w : List Nat} {ts : List Spec.Json.Tok} (hv : Ws v) (h : Txt .members w ts) : Txt .members (v ++ w) ts := by
  cases h with
  | member s b t u v' ts x hs hb ht hu hv' hx =>
    have := Txt.member _ b t u v' ts x (Ws.append hv hs) hb ht hu hv' hx
    simpa using this
  | moreMembers s b t u v' ts x w ts' hs hb ht hu hv' hx hw =>
    have := Txt.moreMembers _ b t u v' ts x w ts' (Ws.append hv hs) hb ht hu hv' hx hw
    simpa using this

theorem elements_ws {v w : List Nat} {ts : List Spec.Json.Tok} (hv : Ws v) (h : Txt .elements w ts) : Txt .elements (v ++ w) ts := by
  cases h with
  | element s v' _ x hs hv' hx =>
    have := Txt.element _ v' ts x (Ws.append hv hs) hv' hx
    simpa using this
  | moreElements s v' ts x w ts' hs hv' hx hw =>
    have := Txt.moreElements _ v' ts x w ts' (Ws.append hv hs) hv' hx hw
    simpa using this

theorem p3_ws {v a : List Nat} {ts : List Spec.Json.Tok} (hv : Ws v) (h : P3 a ts) : P3 (v ++ a) ts := by
  obtain ⟨w, ts', h1, rfl, rfl⟩ := h
  exact ⟨v ++ w, ts', members_ws hv h1, by simp, rfl⟩

theorem p9_ws {v a : List Nat} {ts : List Spec.Json.Tok} (hv : Ws v) (h : P9 a ts) : P9 (v ++ a) ts := by
  obtain ⟨w, ts', h1, rfl, rfl⟩ := h
  exact ⟨v ++ w, ts', elements_ws hv h1, by simp, rfl⟩

theorem piece_ws {st : Nat} {v a : List Nat} {ts : List Spec.Json.Tok} (hv : Ws v) (h : Piece st a ts) : Piece st (v ++ a) ts := by
  unfold Piece at *
  split at h
  · rcases h with h | ⟨s, h1, rfl, rfl⟩
    · exact .inl (p3_ws hv h)
    · exact .inr ⟨v ++ s, h1 |> Ws.append hv, by simp, rfl⟩
  · exact p3_ws hv h
  · obtain ⟨t, a', h1, h2, rfl⟩ := h
    exact ⟨v ++ t, a', Ws.append hv h1, h2, by simp⟩
  · obtain ⟨u, w, tv, a', ts', h1, h2, h3, rfl, rfl⟩ := h
    exact ⟨v ++ u, w, tv, a', ts', Ws.append hv h1, h2, h3, by simp, rfl⟩
  · obtain ⟨x, h1, ⟨rfl, rfl⟩ | ⟨a', rfl, h2⟩⟩ := h
    · exact ⟨v ++ x, Ws.append hv h1, .inl ⟨by simp, rfl⟩⟩
    · exact ⟨v ++ x, Ws.append hv h1, .inr ⟨a', by simp, h2⟩⟩
  · rcases h with h | ⟨s, h1, rfl, rfl⟩
    · exact .inl (p9_ws hv h)
    · exact .inr ⟨v ++ s, h1 |> Ws.append hv, by simp, rfl⟩
  · obtain ⟨x, h1, ⟨rfl, rfl⟩ | ⟨a', rfl, h2⟩⟩ := h
    · exact ⟨v ++ x, Ws.append hv h1, .inl ⟨by simp, rfl⟩⟩
    · exact ⟨v ++ x, Ws.append hv h1, .inr ⟨a', by simp, h2⟩⟩
  · exact p9_ws hv h
  · exact h

theorem acc_ws {st : Nat} {k : List (Nat × Nat)} {v u : List Nat} {ts : List Spec.Json.Tok} (hv : Ws v) (h : Acc st k u ts) : Acc st k (v ++ u) ts := by
  cases k with
  | nil =>
    rcases h with ⟨h1, h2⟩ | ⟨h0, s, w, t, h1, h2, h3, h4, rfl⟩
    · exact .inl ⟨Ws.append hv h1, h2⟩
    · exact .inr ⟨h0, v ++ s, w, t, Ws.append hv h1, h2, h3, h4, by simp⟩
  | cons x k =>
    obtain ⟨a, b, ts1, ts2, h1, h2, rfl, rfl⟩ := h
    exact ⟨v ++ a, b, ts1, ts2, piece_ws hv h1, h2, by simp, rfl⟩

theorem ws_nil : Ws [] := fun _ h => by cases h

theorem p2_value {a : List Nat} {ts : List Spec.Json.Tok} (h : P2 a ts) : Txt .value (123 :: a) ((4, [123]) :: ts) := by
  rcases h with ⟨w, ts', h, rfl, rfl⟩ | ⟨s, h, rfl, rfl⟩
  · exact .object w ts' h
  · exact .noMembers s h

theorem p7_value {a : List Nat} {ts : List Spec.Json.Tok} (h : P7 a ts) : Txt .value (91 :: a) ((7, [91]) :: ts) := by
  rcases h with ⟨w, ts', h, rfl, rfl⟩ | ⟨s, h, rfl, rfl⟩
  · exact .array w ts' h
  · exact .noElements s h

theorem p4_name {v a : List Nat} {ts : List Spec.Json.Tok} (hv : IsString v) (h : P4 a ts) : P3 (v ++ a) ((5, v) :: ts) := by
  obtain ⟨b, hb, rfl⟩ := hv
  obtain ⟨t, _, ht, ⟨u, v, tv, _, ts', hu, hv, ⟨x, hx, ⟨rfl, rfl⟩ | ⟨a', rfl, w, ts'', hw, rfl, rfl⟩⟩, rfl, rfl⟩, rfl⟩ := h
  · exact ⟨_, _, .member [] b t u v tv x ws_nil hb ht hu hv hx, by simp, by simp⟩
  · exact ⟨_, _, .moreMembers [] b t u v tv x w ts'' ws_nil hb ht hu hv hx hw, by simp, by simp⟩

theorem p6_value {v a : List Nat} {tv ts : List Spec.Json.Tok} (hv : Txt .value v tv) (h : P6 a ts) : P5 (v ++ a) (tv ++ ts) :=
  ⟨[], v, tv, a, ts, ws_nil, hv, h, rfl, rfl⟩

theorem p8_value {v a : List Nat} {tv ts : List Spec.Json.Tok} (hv : Txt .value v tv) (h : P8 a ts) : P9 (v ++ a) (tv ++ ts) := by
  obtain ⟨x, hx, ⟨rfl, rfl⟩ | ⟨a', rfl, w, ts'', hw, rfl, rfl⟩⟩ := h
  · exact ⟨_, _, .element [] v tv x ws_nil hv hx, by simp, by simp⟩
  · exact ⟨_, _, .moreElements [] v tv x w ts'' ws_nil hv hx hw, by simp, by simp⟩

/-- A value, and what follows it, in a state where values may stand. -/
theorem value_acc {st : Nat} (hst : st = 5 ∨ st = 7 ∨ st = 9) {k : List (Nat × Nat)} (hk : k ≠ []) {v b : List Nat} {tv ts : List Spec.Json.Tok}
    (hv : Txt .value v tv) (h : Acc (aft st) k b ts) : Acc st k (v ++ b) (tv ++ ts) := by
  cases k with
  | nil => exact absurd rfl hk
  | cons x k =>
    obtain ⟨a, b, ts1, ts2, h1, h2, rfl, rfl⟩ := h
    refine ⟨v ++ a, b, tv ++ ts1, ts2, ?_, h2, by simp, by simp⟩
    rcases hst with rfl | rfl | rfl
    · exact p6_value hv h1
    · exact .inl (p8_value hv h1)
    · exact p8_value hv h1

theorem scalar {f : Form} {id : Nat} {v : List Nat} (h : f.Texts v) (hf : (f = .str ∧ id = 1) ∨ (f = .num ∧ id = 2) ∨ (f = .bool ∧ id = 3) ∨ (f = .null ∧ id = 9)) :
    Txt .value v [(id, shown id v)] := by
  rcases hf with ⟨rfl, rfl⟩ | ⟨rfl, rfl⟩ | ⟨rfl, rfl⟩ | ⟨rfl, rfl⟩
  · obtain ⟨b, hb, rfl⟩ := h
    simpa [shown] using Txt.string b hb
  · exact .number v h
  · rcases h with rfl | rfl
    · exact .true
    · exact .false
  · rw [show v = _ from h]
    exact .null

/-- The rules, by what they are for. -/
def Purpose (st : Nat) (e : Entry) : Prop :=
  e = ews st ∨ (e = ⟨.ch 58, 65534, 5, 65535, false⟩ ∧ st = 4) ∨ (e = ⟨.ch 44, 65534, 3, 65535, false⟩ ∧ st = 6) ∨
  (e = ⟨.ch 44, 65534, 9, 65535, false⟩ ∧ st = 8) ∨
  (e = ⟨.str, 5, 4, 65535, false⟩ ∧ (st = 2 ∨ st = 3)) ∨ (e = ⟨.ch 125, 6, 65535, 65535, true⟩ ∧ (st = 2 ∨ st = 6)) ∨
  (e = ⟨.ch 93, 8, 65535, 65535, true⟩ ∧ (st = 7 ∨ st = 8)) ∨
  (e = ⟨.ch 123, 4, 2, 1, false⟩ ∧ st = 0) ∨ (e = ⟨.ch 91, 7, 7, 1, false⟩ ∧ st = 0) ∨
  ((st = 5 ∨ st = 7 ∨ st = 9) ∧ (e = ⟨.ch 123, 4, 2, aft st, false⟩ ∨ e = ⟨.ch 91, 7, 7, aft st, false⟩ ∨
    (e.next = aft st ∧ e.push = 65535 ∧ e.pop = false ∧ ((e.form = .str ∧ e.id = 1) ∨ (e.form = .num ∧ e.id = 2) ∨ (e.form = .bool ∧ e.id = 3) ∨ (e.form = .null ∧ e.id = 9)))))

set_option synthInstance.maxSize 4000 in
set_option synthInstance.maxHeartbeats 800000 in
theorem sorts : ∀ st < 10, ∀ e ∈ row st, Purpose st e := by
  unfold Purpose
  decide

theorem steps_acc {st : Nat} {k : List (Nat × Nat)} {u : List Nat} {ls : List Line} {n : Nat} (h : Steps st k u ls n) :
    Inv st k → n = 0 → (∀ l ∈ ls, l.id ≠ 65535) → Acc st k u (ls.map tok) := by
  induction h with
  | eoi st k =>
    intro _ hn _
    rw [List.eq_nil_of_length_eq_zero hn]
    exact .inl ⟨ws_nil, rfl⟩
  | none st k c w ls n _ _ _ =>
    intro _ _ hl
    exact absurd rfl (hl _ (List.mem_cons_self ..))
  | skip st k e v w ls n hT hid _ ih =>
    intro hI hn hl
    obtain ⟨f1, f2, f3, f4, f5, f6⟩ := facts st hI.lt e hT.mem
    obtain ⟨g1, g2⟩ := f4 hid
    have hI' := hI.next hT.mem g2
    rw [if_pos g1] at hI'
    have ih := ih hI' hn hl
    have hh := hT.hit
    have cons : 2 ≤ st → ∃ x k', k = x :: k' := by
      intro h
      rcases hI with ⟨_, h'⟩ | ⟨h', _⟩
      · omega
      · cases h' with
        | one => exact ⟨_, _, rfl⟩
        | more => exact ⟨_, _, rfl⟩
    rcases sorts st hI.lt e hT.mem with rfl | ⟨rfl, rfl⟩ | ⟨rfl, rfl⟩ | ⟨rfl, rfl⟩ | ⟨rfl, _⟩ | ⟨rfl, _⟩ | ⟨rfl, _⟩ | ⟨rfl, _⟩ | ⟨rfl, _⟩ | ⟨hst, rfl | rfl | ⟨_, _, _, hs⟩⟩
    · exact acc_ws hh.2 ih
    · obtain ⟨x, k', rfl⟩ := cons (by decide)
      obtain ⟨a, b, ts1, ts2, h1, h2, h3, h4⟩ := ih
      rw [show v = [58] from hh]
      exact ⟨58 :: a, b, ts1, ts2, ⟨[], a, ws_nil, h1, rfl⟩, h2, by rw [h3]; rfl, h4⟩
    · obtain ⟨x, k', rfl⟩ := cons (by decide)
      obtain ⟨a, b, ts1, ts2, h1, h2, h3, h4⟩ := ih
      rw [show v = [44] from hh]
      exact ⟨44 :: a, b, ts1, ts2, ⟨[], ws_nil, .inr ⟨a, rfl, h1⟩⟩, h2, by rw [h3]; rfl, h4⟩
    · obtain ⟨x, k', rfl⟩ := cons (by decide)
      obtain ⟨a, b, ts1, ts2, h1, h2, h3, h4⟩ := ih
      rw [show v = [44] from hh]
      exact ⟨44 :: a, b, ts1, ts2, ⟨[], ws_nil, .inr ⟨a, rfl, h1⟩⟩, h2, by rw [h3]; rfl, h4⟩
    · cases hid
    · cases hid
    · cases hid
    · cases hid
    · cases hid
    · cases hid
    · cases hid
    · omega
  | token st k e v w ls n hT hid hpop _ ih =>
    intro hI hn hl
    have hI' := hI.next hT.mem hpop
    have ih := ih hI' hn (fun l h => hl l (List.mem_cons_of_mem _ h))
    have hh := hT.hit
    have cons : 2 ≤ st → ∃ x k', k = x :: k' := by
      intro h
      rcases hI with ⟨_, h'⟩ | ⟨h', _⟩
      · omega
      · cases h' with
        | one => exact ⟨_, _, rfl⟩
        | more => exact ⟨_, _, rfl⟩
    rw [List.map_cons, show tok ⟨e.id, shown e.id v, e.next⟩ = (e.id, shown e.id v) from rfl]
    rcases sorts st hI.lt e hT.mem with rfl | ⟨rfl, rfl⟩ | ⟨rfl, rfl⟩ | ⟨rfl, rfl⟩ | ⟨rfl, hst⟩ | ⟨rfl, _⟩ | ⟨rfl, _⟩ | ⟨rfl, hst⟩ | ⟨rfl, hst⟩ | ⟨hst, rfl | rfl | ⟨hnext, hpush, _, hs⟩⟩
    · exact absurd rfl hid
    · exact absurd rfl hid
    · exact absurd rfl hid
    · exact absurd rfl hid
    · obtain ⟨x, k', rfl⟩ := cons (by omega)
      obtain ⟨a, b, ts1, ts2, h1, h2, h3, h4⟩ := ih
      refine ⟨v ++ a, b, (5, v) :: ts1, ts2, ?_, h2, by rw [h3, List.append_assoc], by rw [h4]; rfl⟩
      rcases hst with rfl | rfl
      · exact .inl (p4_name hh h1)
      · exact p4_name hh h1
    · cases hpop
    · cases hpop
    · subst hst
      have hk : k = [] := by
        rcases hI with ⟨h, _⟩ | ⟨_, h⟩
        · exact h
        · omega
      subst hk
      obtain ⟨a, b, ts1, ts2, h1, h2, h3, h4⟩ := ih
      rcases h2 with ⟨h2, rfl⟩ | ⟨h2, _⟩
      · rw [show v = [123] from hh]
        refine .inr ⟨rfl, [], 123 :: a, b, ws_nil, h2, .inl rfl, ?_, by rw [h3]; rfl⟩
        rw [h4, List.append_nil]
        exact p2_value h1
      · cases h2
    · subst hst
      have hk : k = [] := by
        rcases hI with ⟨h, _⟩ | ⟨_, h⟩
        · exact h
        · omega
      subst hk
      obtain ⟨a, b, ts1, ts2, h1, h2, h3, h4⟩ := ih
      rcases h2 with ⟨h2, rfl⟩ | ⟨h2, _⟩
      · rw [show v = [91] from hh]
        refine .inr ⟨rfl, [], 91 :: a, b, ws_nil, h2, .inr rfl, ?_, by rw [h3]; rfl⟩
        rw [h4, List.append_nil]
        exact p7_value h1
      · cases h2
    · obtain ⟨x, k', rfl⟩ := cons (by omega)
      rw [if_neg (show aft st ≠ 65535 from by unfold aft; split <;> omega)] at ih
      obtain ⟨a, b, ts1, ts2, h1, h2, h3, h4⟩ := ih
      have := value_acc hst (by simp) (p2_value h1) h2
      rw [show v = [123] from hh, h3, h4]
      exact this
    · obtain ⟨x, k', rfl⟩ := cons (by omega)
      rw [if_neg (show aft st ≠ 65535 from by unfold aft; split <;> omega)] at ih
      obtain ⟨a, b, ts1, ts2, h1, h2, h3, h4⟩ := ih
      have := value_acc hst (by simp) (p7_value h1) h2
      rw [show v = [91] from hh, h3, h4]
      exact this
    · obtain ⟨x, k', rfl⟩ := cons (by omega)
      rw [if_pos hpush, hnext] at ih
      exact value_acc hst (by simp) (scalar hh hs) ih
  | pop st x k e v w ls n hT hid hpop _ ih =>
    intro hI hn hl
    have ih := ih hI.down hn (fun l h => hl l (List.mem_cons_of_mem _ h))
    have hh := hT.hit
    rw [List.map_cons, show tok ⟨e.id, shown e.id v, x.1⟩ = (e.id, shown e.id v) from rfl]
    rcases sorts st hI.lt e hT.mem with rfl | ⟨rfl, rfl⟩ | ⟨rfl, rfl⟩ | ⟨rfl, rfl⟩ | ⟨rfl, hst⟩ | ⟨rfl, hst⟩ | ⟨rfl, hst⟩ | ⟨rfl, hst⟩ | ⟨rfl, hst⟩ | ⟨hst, rfl | rfl | ⟨hnext, hpush, hp, hs⟩⟩
    · cases hpop
    · cases hpop
    · cases hpop
    · cases hpop
    · cases hpop
    · rw [show v = [125] from hh]
      refine ⟨[125], w, [(6, [125])], ls.map tok, ?_, ih, rfl, rfl⟩
      rcases hst with rfl | rfl
      · exact .inr ⟨[], ws_nil, rfl, rfl⟩
      · exact ⟨[], ws_nil, .inl ⟨rfl, rfl⟩⟩
    · rw [show v = [93] from hh]
      refine ⟨[93], w, [(8, [93])], ls.map tok, ?_, ih, rfl, rfl⟩
      rcases hst with rfl | rfl
      · exact .inr ⟨[], ws_nil, rfl, rfl⟩
      · exact ⟨[], ws_nil, .inl ⟨rfl, rfl⟩⟩
    · cases hpop
    · cases hpop
    · cases hpop
    · cases hpop
    · rw [hp] at hpop
      cases hpop

theorem steps_document {u : List Nat} {ls : List Line} (h : Steps 0 [] u ls 0) (hl : ∀ l ∈ ls, l.id ≠ 65535) (hne : ls ≠ []) :
    Document u (ls.map tok) := by
  rcases steps_acc h (.inl ⟨rfl, by decide⟩) rfl hl with ⟨_, h⟩ | ⟨_, h⟩
  · exact absurd (List.map_eq_nil_iff.1 h) hne
  · exact h

/-! ### Determinism -/

theorem takes_ne {es : List Entry} {e : Entry} {v w : List Nat} (h : Takes es e v w) : v ++ w ≠ [] := by
  obtain ⟨c, x, rfl, _⟩ := texts_first h.hit
  simp

theorem steps_unique {st : Nat} {k : List (Nat × Nat)} {u : List Nat} {ls : List Line} {n : Nat} (h : Steps st k u ls n) :
    ∀ {u' ls' n'}, Steps st k u' ls' n' → u' = u → ls' = ls ∧ n' = n := by
  induction h with
  | eoi st k =>
    intro u' ls' n' h' e
    cases h' with
    | eoi => exact ⟨rfl, rfl⟩
    | none => cases e
    | skip _ _ _ _ _ _ _ hT => exact absurd e (takes_ne hT)
    | token _ _ _ _ _ _ _ hT => exact absurd e (takes_ne hT)
    | pop _ _ _ _ _ _ _ _ hT => exact absurd e (takes_ne hT)
  | none st k c w ls n hN _ ih =>
    intro u' ls' n' h' e
    cases h' with
    | eoi => cases e
    | none _ _ c' w' ls1 n1 _ h1 =>
      cases e
      obtain ⟨rfl, rfl⟩ := ih h1 rfl
      exact ⟨rfl, rfl⟩
    | skip _ _ _ _ _ _ _ hT => exact absurd (e ▸ hN) (fun h => takes_nothing hT h)
    | token _ _ _ _ _ _ _ hT => exact absurd (e ▸ hN) (fun h => takes_nothing hT h)
    | pop _ _ _ _ _ _ _ _ hT => exact absurd (e ▸ hN) (fun h => takes_nothing hT h)
  | skip st k en v w ls n hT hid _ ih =>
    intro u' ls' n' h' e
    cases h' with
    | eoi => exact absurd e.symm (takes_ne hT)
    | none _ _ c' w' ls1 n1 hN h1 => exact absurd (e ▸ hN) (fun h => takes_nothing hT h)
    | skip _ _ _ _ _ _ _ hT' _ h1 =>
      obtain ⟨rfl, rfl, rfl⟩ := takes_unique hT' hT e
      exact ih h1 rfl
    | token _ _ _ _ _ _ _ hT' hid' =>
      obtain ⟨rfl, rfl, rfl⟩ := takes_unique hT' hT e
      exact absurd hid hid'
    | pop _ _ _ _ _ _ _ _ hT' hid' =>
      obtain ⟨rfl, rfl, rfl⟩ := takes_unique hT' hT e
      exact absurd hid hid'
  | token st k en v w ls n hT hid hp _ ih =>
    intro u' ls' n' h' e
    cases h' with
    | eoi => exact absurd e.symm (takes_ne hT)
    | none _ _ c' w' ls1 n1 hN h1 => exact absurd (e ▸ hN) (fun h => takes_nothing hT h)
    | skip _ _ _ _ _ _ _ hT' hid' =>
      obtain ⟨rfl, rfl, rfl⟩ := takes_unique hT' hT e
      exact absurd hid' hid
    | token _ _ _ _ _ _ _ hT' _ _ h1 =>
      obtain ⟨rfl, rfl, rfl⟩ := takes_unique hT' hT e
      obtain ⟨rfl, rfl⟩ := ih h1 rfl
      exact ⟨rfl, rfl⟩
    | pop _ _ _ _ _ _ _ _ hT' _ hp' =>
      obtain ⟨rfl, rfl, rfl⟩ := takes_unique hT' hT e
      rw [hp] at hp'
      cases hp'
  | pop st x k en v w ls n hT hid hp _ ih =>
    intro u' ls' n' h' e
    cases h' with
    | none _ _ c' w' ls1 n1 hN h1 => exact absurd (e ▸ hN) (fun h => takes_nothing hT h)
    | eoi => exact absurd e.symm (takes_ne hT)
    | skip _ _ _ _ _ _ _ hT' hid' =>
      obtain ⟨rfl, rfl, rfl⟩ := takes_unique hT' hT e
      exact absurd hid' hid
    | token _ _ _ _ _ _ _ hT' _ hp' =>
      obtain ⟨rfl, rfl, rfl⟩ := takes_unique hT' hT e
      rw [hp] at hp'
      cases hp'
    | pop _ _ _ _ _ _ _ _ hT' _ _ h1 =>
      obtain ⟨rfl, rfl, rfl⟩ := takes_unique hT' hT e
      obtain ⟨rfl, rfl⟩ := ih h1 rfl
      exact ⟨rfl, rfl⟩

end Lexertl.Json
