import Verif.Proofs.RulesSet
import Verif.Props.Tables
import Verif.Props.Lexing
import Verif.Props.Syntax

/-
Properties of the rules object (C31, C32), of regex texts (C46), and from regex texts to
tokens (C45).
-/
namespace Lexertl.Props
open Spec

namespace Ex
/-- Single byte characters, the locale "C", no Unicode properties. -/
def env : TokEnv where
  max := 255
  size := 1
  upper c := if 97 ≤ c ∧ c ≤ 122 then c - 32 else c
  lower c := if 65 ≤ c ∧ c ≤ 90 then c + 32 else c
  isAlnum c := (48 ≤ c && c ≤ 57) || (65 ≤ c && c ≤ 90) || (97 ≤ c && c ≤ 122)
  isAlpha c := (65 ≤ c && c ≤ 90) || (97 ≤ c && c ≤ 122)
  isLower c := 97 ≤ c && c ≤ 122
  isUpper c := 65 ≤ c && c ≤ 90
  fold2 := []
  fold4 := []
  unicode _ := none

theorem envOk : TokEnvOk env where
  big := by decide
  byte _ := rfl
  upper c hc := by
    show (if 97 ≤ c ∧ c ≤ 122 then c - 32 else c) ≤ 255
    have : c ≤ 255 := hc
    split <;> omega
  lower c hc := by
    show (if 65 ≤ c ∧ c ≤ 90 then c + 32 else c) ≤ 255
    have : c ≤ 255 := hc
    split <;> omega
  fold2 := by intro p hp; cases hp
  fold4 := by intro p hp; cases hp
  classes c h := by
    simp only [env, Bool.or_eq_true, Bool.and_eq_true, decide_eq_true_eq] at h
    omega
  unicode := by intro n s h; cases h
  nest := by intro i d n s _ _ h; cases h

/-- 16 bit characters, with three Unicode properties, one of them given by the other two. -/
def env2 : TokEnv where
  max := 65535
  size := 2
  upper c := c
  lower c := c
  isAlnum _ := false
  isAlpha _ := false
  isLower _ := false
  isUpper _ := false
  fold2 := [((65, 90), (97, 122)), ((97, 122), (65, 90))]
  fold4 := []
  unicode name :=
    if name = chars "Lu" then some (chars "[A-Z]")
    else if name = chars "Ll" then some (chars "[a-z]")
    else if name = chars "LC" then some (chars "[\\p{Lu}\\p{Ll}]")
    else none

set_option maxRecDepth 20000 in
theorem envOk2 : TokEnvOk env2 where
  big := by decide
  byte := by intro h; cases h
  upper c hc := hc
  lower c hc := hc
  fold2 := by decide
  fold4 := by intro p hp; cases hp
  classes c h := by simp [env2] at h
  unicode := by
    intro n s h
    simp only [env2] at h
    split at h
    · cases h; decide
    · split at h
      · cases h; decide
      · split at h
        · cases h; decide
        · cases h
  nest := by
    have key : ∀ (icase : Bool) (d : Nat), charsetDepth ≤ d + 2 → d ≤ charsetDepth → ∀ s ∈ [chars "[A-Z]", chars "[a-z]", chars "[\\p{Lu}\\p{Ll}]"],
        (charset env2 icase d s.tail).isOk = true := by
      intro icase d h1 h2
      have : d = 6 ∨ d = 7 ∨ d = 8 := by simp only [charsetDepth] at h1 h2; omega
      rcases this with rfl | rfl | rfl <;> cases icase <;> decide +kernel
    intro i d n s h1 h2 h e
    have hm : s ∈ [chars "[A-Z]", chars "[a-z]", chars "[\\p{Lu}\\p{Ll}]"] := by
      simp only [env2] at h
      split at h
      · cases h; simp
      · split at h
        · cases h; simp
        · split at h
          · cases h; simp
          · cases h
    have := key i d h1 h2 s hm
    rw [e] at this
    cases this

theorem decVal_lt : ∀ (ds : List Nat), (∀ c ∈ ds, 48 ≤ c ∧ c ≤ 57) → ∀ n, ds.foldl (fun n c => n * 10 + (c - 48)) n < (n + 1) * 10 ^ ds.length
  | [], _, n => by simp
  | c :: ds, h, n => by
    have h1 := h c (by simp)
    have h2 := decVal_lt ds (fun d hd => h d (by simp [hd])) (n * 10 + (c - 48))
    rw [List.foldl_cons, List.length_cons, Nat.pow_succ]
    have : (n * 10 + (c - 48) + 1) * 10 ^ ds.length ≤ ((n + 1) * 10) * 10 ^ ds.length := Nat.mul_le_mul_right _ (by omega)
    have e : (n + 1) * (10 ^ ds.length * 10) = ((n + 1) * 10) * 10 ^ ds.length := by
      rw [Nat.mul_assoc, Nat.mul_comm 10]
    omega

def noPad : List Nat → Bool
  | 123 :: 48 :: d :: cs => !isDigit d && noPad (48 :: d :: cs)
  | _ :: cs => noPad cs
  | [] => true

theorem noPad_tail {c : Nat} {cs : List Nat} (h : noPad (c :: cs) = true) : noPad cs = true := by
  unfold noPad at h
  split at h
  · rename_i heq
    cases heq
    simp only [Bool.and_eq_true] at h
    exact h.2
  · rename_i heq
    cases heq
    exact h
  · contradiction

theorem noPad_sound : ∀ (a : List Nat) {b : List Nat} {d : Nat}, noPad (a ++ 123 :: 48 :: d :: b) = true → isDigit d = false
  | [], b, d, h => by
    simp only [List.nil_append, noPad, Bool.and_eq_true, Bool.not_eq_true'] at h
    exact h.1
  | c :: a, b, d, h => noPad_sound a (noPad_tail h)

/-- Short texts have plain counts. -/
theorem plain {cs : List Nat} (hlen : cs.length ≤ 18) (hp : noPad cs = true) : PlainCounts cs := by
  refine ⟨?_, ?_⟩
  · intro ds hd hi
    have h1 := decVal_lt ds hd.2 0
    have h2 : ds.length ≤ 18 := Nat.le_trans hi.length_le hlen
    have h3 : 10 ^ ds.length ≤ 10 ^ 18 := Nat.pow_le_pow_right (by decide) h2
    have h4 : 10 ^ 18 < 2 ^ 64 := by decide
    unfold decVal
    omega
  · rintro d hd ⟨a, b, e⟩
    rw [← e, List.append_assoc] at hp
    have := noPad_sound a hp
    rw [this] at hd
    cases hd

/-- A lexer for numbers, words at line starts and strings. -/
def ruleCalls : List Call :=
  [.pushState (chars "STR"), .insertMacro (chars "D") (chars "[0-9]"),
   .push (chars "{D}+") 1 7, .push (chars "^[a-z]+") 2 65535,
   .pushIn (chars "INITIAL") (chars "[\"]") (some 3) (chars ">STR") 65535,
   .pushIn (chars "STR") (chars "[\"]") (some 4) (chars "<") 65535,
   .pushIn (chars "*") (chars "[\n ]") (some 65534) (chars ".") 65535]

def obj0 : RulesObj := RulesObj.new tr {}
/-- The object after calls. -/
def runs (cs : List Call) (o : RulesObj) : RulesObj := cs.foldl (fun o c => (c.run env tr o).1) o
def obj : RulesObj := runs ruleCalls obj0

def callOk (c : Call) (o : RulesObj) : Bool :=
  match c with
  | .insertMacro _ r => (c.run env tr o).2.isOk && r.all (· ≤ 255) && decide (r.length ≤ 18) && noPad r
  | .push r _ _ => r.all (· ≤ 255) && decide (r.length ≤ 18) && noPad r
  | .pushIn _ r _ _ _ => r.all (· ≤ 255) && decide (r.length ≤ 18) && noPad r
  | _ => true

def callsOk : List Call → RulesObj → Bool
  | [], _ => true
  | c :: cs, o => callOk c o && callsOk cs (c.run env tr o).1

theorem isOk_ok {x : M Unit} (h : x.isOk = true) : x = .ok () := by
  cases x with
  | ok a => rfl
  | error e => cases h

theorem careful_of : ∀ (cs : List Call) (o : RulesObj), callsOk cs o = true → Careful env tr o cs (runs cs o)
  | [], o, _ => .nil o
  | c :: cs, o, h => by
    simp only [callsOk, Bool.and_eq_true] at h
    refine .cons o c cs _ ?_ ?_ (careful_of cs _ h.2)
    · have h1 := h.1
      cases c <;> simp only [callOk, Bool.and_eq_true, List.all_eq_true, decide_eq_true_eq] at h1 <;> try trivial
      · exact ⟨h1.1.1.2, plain h1.1.2 h1.2⟩
      · exact ⟨h1.1.1, plain h1.1.2 h1.2⟩
      · exact ⟨h1.1.1, plain h1.1.2 h1.2⟩
    · intro n r e
      subst e
      have h1 := h.1
      simp only [callOk, Bool.and_eq_true] at h1
      exact .inl (isOk_ok h1.1.1.1)

set_option maxRecDepth 20000 in
theorem careful : Careful env tr obj0 ruleCalls obj := careful_of _ _ (by decide +kernel)

/-- 8 bit `id_type`. -/
def tr8 : Traits := { tr with npos := 255 }
/-- 254 names of two letters. -/
def manyNames : List (List Nat) := (List.range 254).map fun i => [97 + i / 26, 97 + i % 26]
def full : RulesObj := manyNames.foldl (fun o n => (o.pushState tr8 n).1) (RulesObj.new tr8 {})

theorem calls_full : ∀ (ns : List (List Nat)) (o : RulesObj), 
    ns.foldl (fun (x : RulesObj × Bool) n => ((x.1.pushState tr8 n).1, x.2 && (x.1.pushState tr8 n).2.isOk)) (o, true) =
      (ns.foldl (fun o n => (o.pushState tr8 n).1) o, true) →
    Calls env tr8 o (ns.map .pushState) (ns.foldl (fun o n => (o.pushState tr8 n).1) o)
  | [], o, _ => .nil o
  | n :: ns, o, h => by
    simp only [List.foldl_cons, Bool.true_and] at h
    cases hb : (o.pushState tr8 n).2.isOk with
    | false =>
      exfalso
      rw [hb] at h
      have : ∀ (ns : List (List Nat)) (o : RulesObj),
          (ns.foldl (fun (x : RulesObj × Bool) n => ((x.1.pushState tr8 n).1, x.2 && (x.1.pushState tr8 n).2.isOk)) (o, false)).2 = false := by
        intro ns
        induction ns with
        | nil => intro o; rfl
        | cons n ns ih => intro o; simp only [List.foldl_cons, Bool.false_and]; exact ih _
      have h2 := this ns (o.pushState tr8 n).1
      rw [h] at h2
      cases h2
    | true =>
      rw [hb] at h
      refine .cons o (.pushState n) _ _ ?_ (calls_full ns _ h)
      show Spec.Done (outcome _)
      cases hx : (o.pushState tr8 n).2 with
      | ok a => trivial
      | error e => rw [hx] at hb; cases hb

end Ex

/-! ### C31: lexer state names -/

/-- C31.  The name of a number and the number of a name are inverse to each other, after
any sequence of calls, as long as the states fit `id_type`. -/
theorem C31_names_and_ids_inverse {E : TokEnv} {tr : Traits} {flags : ReFlags} {cs : List Call} {o : RulesObj}
    (h : Calls E tr (RulesObj.new tr flags) cs o) (hn : o.states.length ≤ tr.npos) (name : List Nat) {i : Nat} (hi : i < o.states.length) :
    o.stateId tr name = i ↔ o.stateName tr i = some name := by
  have hs := calls_statesOk h (new_statesOk tr flags).1
  rw [stateId_iff hs hn name i hi, stateName_eq i (by omega)]

/-- C31.  Every number below the number of states has a name (so exactly one, which no
other state has), and a name that is not the name of a state gets `npos`. -/
theorem C31_names_exist {E : TokEnv} {tr : Traits} {flags : ReFlags} {cs : List Call} {o : RulesObj}
    (h : Calls E tr (RulesObj.new tr flags) cs o) (hn : o.states.length ≤ tr.npos) :
    (∀ i < o.states.length, ∃ name, o.stateName tr i = some name) ∧
      ∀ name, (∀ i < o.states.length, o.stateName tr i ≠ some name) → o.stateId tr name = tr.npos := by
  have hs := calls_statesOk h (new_statesOk tr flags).1
  have hl := hs.states
  refine ⟨?_, ?_⟩
  · intro i hi
    rw [stateName_eq i (by omega)]
    exact ⟨_, List.getElem?_eq_getElem (hl ▸ hi)⟩
  · intro name hnone
    have : find name o.statemap = none := by
      rw [hs.map, find_none]
      intro hm
      obtain ⟨i, hi, e⟩ := List.mem_iff_getElem.1 hm
      refine hnone i (hl ▸ hi) ?_
      rw [stateName_eq i (by omega), List.getElem?_eq_getElem hi, e]
    rw [RulesObj.stateId, this]
    rfl

/-- C31.  State 0 is `INITIAL`. -/
theorem C31_initial_is_zero {E : TokEnv} {tr : Traits} {flags : ReFlags} {cs : List Call} {o : RulesObj}
    (h : Calls E tr (RulesObj.new tr flags) cs o) :
    o.stateName tr 0 = some initialName ∧ o.stateId tr initialName = 0 := by
  have hs := calls_statesOk h (new_statesOk tr flags).1
  refine ⟨rfl, ?_⟩
  have : find initialName o.statemap = some (tr.toId 0) := by
    rw [hs.map, find_numbered _ _ _ _ hs.nodup]
    exact ⟨0, rfl, rfl⟩
  rw [RulesObj.stateId, this]
  simp [Traits.toId]

/-- C31.  `push_state` returns the number under which the name is found afterwards. -/
theorem C31_push_state_returns_id {E : TokEnv} {tr : Traits} {flags : ReFlags} {cs : List Call} {o : RulesObj}
    (h : Calls E tr (RulesObj.new tr flags) cs o) (hn : o.states.length ≤ tr.npos) {name : List Nat} {i : Nat}
    (hp : (o.pushState tr name).2 = .ok i) :
    i < (o.pushState tr name).1.states.length ∧ (o.pushState tr name).1.stateId tr name = i ∧
      (o.pushState tr name).1.stateName tr i = some name := by
  have hs := calls_statesOk h (new_statesOk tr flags).1
  have hl := hs.states
  have hs' := pushState_ok hs name
  have hl' := hs'.states
  suffices key : i < (o.pushState tr name).1.states.length ∧ (o.pushState tr name).1.states.length ≤ tr.npos ∧
      (o.pushState tr name).1.stateNames[i]? = some name from
    ⟨key.1, (stateId_iff hs' key.2.1 name i key.1).2 key.2.2, (stateName_eq i (by omega)).trans key.2.2⟩
  rcases pushState_cases hs name with e | ⟨j, h1, e⟩ | ⟨h1, h2, o', ho', e⟩
  · rw [e] at hp; cases hp
  · rw [e] at hp ⊢
    have hj : j < o.stateNames.length := (List.getElem?_eq_some_iff.1 h1).1
    have : tr.toId j = j := toId_small (by omega)
    have : j = i := by injection hp with hp; omega
    subst this
    exact ⟨hl ▸ hj, hn, h1⟩
  · rw [e] at hp ⊢
    have hlen : o'.names.length = o.states.length := by rw [ho']; simp [RulesObj.stateNames] at hl ⊢; omega
    have hlen' : o'.states.length = o.states.length + 1 := by rw [ho']; simp
    split at hp
    · cases hp
    · rename_i hle
      have : tr.toId o'.names.length = o'.names.length := toId_small (by omega)
      have : i = o.states.length := by injection hp with hp; omega
      refine ⟨(by omega : i < o'.states.length), (by omega : o'.states.length ≤ tr.npos), ?_⟩
      rw [this, hl, ho']
      simp [RulesObj.stateNames]

/-- C31.  A name known already is given its number again, and nothing changes. -/
theorem C31_push_state_known {E : TokEnv} {tr : Traits} {flags : ReFlags} {cs : List Call} {o : RulesObj}
    (h : Calls E tr (RulesObj.new tr flags) cs o) (hn : o.states.length ≤ tr.npos) {name : List Nat} {i : Nat}
    (hi : i < o.states.length) (hname : o.stateName tr i = some name) : o.pushState tr name = (o, .ok i) := by
  have hs := calls_statesOk h (new_statesOk tr flags).1
  rw [stateName_eq i (by omega)] at hname
  have hv := hs.valid name (List.mem_of_getElem? hname)
  have hf : find name o.statemap = some (tr.toId i) := by
    rw [hs.map, find_numbered _ _ _ _ hs.nodup]
    exact ⟨i, hname, by simp⟩
  rw [RulesObj.pushState, if_neg (by simp [hv]), hf, toId_small (by omega)]

/-- C31.  A new name gets the next number, if it is a name and there is room. -/
theorem C31_push_state_new {E : TokEnv} {tr : Traits} {flags : ReFlags} {cs : List Call} {o : RulesObj}
    (h : Calls E tr (RulesObj.new tr flags) cs o) (hn : o.states.length < tr.npos) {name : List Nat} (hv : validName name = true)
    (hnew : ∀ i < o.states.length, o.stateName tr i ≠ some name) :
    (o.pushState tr name).2 = .ok o.states.length ∧ (o.pushState tr name).1.states = o.states ++ [[]] := by
  have hs := calls_statesOk h (new_statesOk tr flags).1
  have hl := hs.states
  have hnot : name ∉ o.stateNames := by
    intro hm
    obtain ⟨i, hi, e⟩ := List.mem_iff_getElem.1 hm
    refine hnew i (hl ▸ hi) ?_
    rw [stateName_eq i (by omega), List.getElem?_eq_getElem hi, e]
  rw [pushState_new hs hv hnot, if_neg (by omega)]
  have : o.names.length + 1 = o.states.length := by simp [RulesObj.stateNames] at hl; omega
  rw [this, toId_small (by omega)]
  exact ⟨rfl, rfl⟩

/-- C31.  Numbers and names stay as they are under all later calls but `clear()`. -/
theorem C31_names_stable {E : TokEnv} {tr : Traits} {flags : ReFlags} {cs cs' : List Call} {o o' : RulesObj}
    (h : Calls E tr (RulesObj.new tr flags) cs o) (h' : Calls E tr o cs' o') (hc : .clear ∉ cs')
    (hn : o'.states.length ≤ tr.npos) {name : List Nat} {i : Nat} (hi : i < o.states.length) (hname : o.stateName tr i = some name) :
    i < o'.states.length ∧ o'.stateName tr i = some name ∧ o'.stateId tr name = i := by
  have hs := calls_statesOk h (new_statesOk tr flags).1
  have hs' := calls_statesOk h' hs
  have hp := calls_prefix h' hs hc
  have hle : o.states.length ≤ o'.states.length := by rw [hs.states, hs'.states]; exact hp.length_le
  rw [stateName_eq i (by omega)] at hname
  obtain ⟨t, ht⟩ := hp
  have : o'.stateNames[i]? = some name := by
    rw [← ht, List.getElem?_append_left (by rw [← hs.states]; exact hi)]
    exact hname
  exact ⟨by omega, (stateName_eq i (by omega)).trans this, (stateId_iff hs' hn name i (by omega)).2 this⟩

/-- C31 has content. -/
example : Calls Ex.env Ex.tr Ex.obj0 [.pushState (chars "STR"), .pushState (chars "A B")] (Ex.runs [.pushState (chars "STR")] Ex.obj0) ∧
    (Ex.runs [.pushState (chars "STR")] Ex.obj0).states.length = 2 ∧
    (Ex.runs [.pushState (chars "STR")] Ex.obj0).stateName Ex.tr 1 = some (chars "STR") ∧
    (Ex.runs [.pushState (chars "STR")] Ex.obj0).stateId Ex.tr (chars "STR") = 1 ∧ validName (chars "ID") = true :=
  ⟨.cons _ _ _ _ trivial (.cons _ _ _ _ trivial (.nil _)), by decide +kernel⟩

/-- C31 does not hold when the states no longer fit: `push_state` refuses the name, but
the state is there, under the number that means "no such state"; the next refused name
is found under the number of `INITIAL`. -/
theorem C31_overflow {E : TokEnv} {tr : Traits} {flags : ReFlags} {cs : List Call} {o : RulesObj}
    (h : Calls E tr (RulesObj.new tr flags) cs o) (hn : o.states.length = tr.npos) {a b : List Nat} (ha : validName a = true)
    (hb : validName b = true) (hab : a ≠ b) (hnewa : ∀ i < o.states.length, o.stateName tr i ≠ some a)
    (hnewb : ∀ i < o.states.length, o.stateName tr i ≠ some b) :
    (o.pushState tr a).2.isOk = false ∧ (o.pushState tr a).1.states.length = tr.npos + 1 ∧
      ((o.pushState tr a).1.pushState tr b).2.isOk = false ∧
      ((o.pushState tr a).1.pushState tr b).1.stateId tr b = 0 := by
  have new : ∀ {o : RulesObj} (hs : StatesOk tr o) {a : List Nat}, validName a = true → a ∉ o.stateNames → tr.npos ≤ o.states.length →
      (o.pushState tr a).2.isOk = false ∧ (o.pushState tr a).1.stateNames = o.stateNames ++ [a] ∧
      (o.pushState tr a).1.states.length = o.states.length + 1 ∧ (o.pushState tr a).1.stateId tr a = tr.toId o.states.length := by
    intro o hs a hv hnot hle
    have hs' := pushState_ok hs a
    have e := pushState_new hs hv hnot
    rw [if_pos (by omega)] at e
    rw [e] at hs' ⊢
    refine ⟨rfl, by simp [RulesObj.stateNames, RulesObj.addState], by simp [RulesObj.addState], ?_⟩
    rw [RulesObj.stateId]
    have hm := hs'.map
    have hf := (find_numbered tr a 0 _ hs'.nodup (tr.toId o.states.length)).2 ⟨o.states.length, by
      rw [hs.states]; simp [RulesObj.stateNames, RulesObj.addState], by simp⟩
    rw [← hm] at hf
    rw [hf]
    rfl
  have hs := calls_statesOk h (new_statesOk tr flags).1
  have hl := hs.states
  have notin : ∀ a, (∀ i < o.states.length, o.stateName tr i ≠ some a) → a ∉ o.stateNames := by
    intro a hnew hm
    obtain ⟨i, hi, e⟩ := List.mem_iff_getElem.1 hm
    refine hnew i (hl ▸ hi) ?_
    rw [stateName_eq i (by omega), List.getElem?_eq_getElem hi, e]
  obtain ⟨g1, g2, g3, _⟩ := new hs ha (notin a hnewa) (by omega)
  obtain ⟨k1, _, _, k4⟩ := new (pushState_ok hs a) hb (by rw [g2]; simp [notin b hnewb, hab.symm]) (by omega)
  refine ⟨g1, by omega, k1, ?_⟩
  rw [k4, g3, hn]
  simp [Traits.toId]

set_option maxRecDepth 100000 in
/-- Such objects exist: 8 bit `id_type`, 254 states besides `INITIAL`. -/
example : Calls Ex.env Ex.tr8 (RulesObj.new Ex.tr8 {}) (Ex.manyNames.map .pushState) Ex.full ∧
    Ex.full.states.length = Ex.tr8.npos ∧ Ex.full.stateId Ex.tr8 (chars "x1") = Ex.tr8.npos :=
  ⟨Ex.calls_full _ _ (by decide +kernel), by decide +kernel, by decide +kernel⟩

/-! ### C32: refused rules -/

/-- C32.  A rule that is refused (state `INITIAL`) leaves the object as it was. -/
theorem C32_refused_push_unchanged {E : TokEnv} {tr : Traits} {o o' : RulesObj} {regex : List Nat} {id userId : Nat} {e : Fault}
    (h : o.pushInitial E tr regex id userId = (o', .error e)) : o' = o :=
  pushInitial_throw h

/-- C32.  A rule for named states that is refused leaves the object as it was, whichever
states it is for, also when it is for several of them. -/
theorem C32_refused_push_named_unchanged {E : TokEnv} {tr : Traits} {o o' : RulesObj} {curr regex new : List Nat} {id : Option Nat} {userId : Nat}
    {msg : String} (h : o.pushNamed E tr curr regex id new userId = (o', .error (.throw msg))) : o' = o :=
  pushNamed_throw h

/-- C32.  A rule for `INITIAL` that is taken: one rule for each part the text was split
into (more than one only for alternatives with non-greedy operators) is appended to the
rules of `INITIAL`, with the given ids; everything before keeps its place, and nothing else
changes but the features. -/
theorem C32_push_appends {E : TokEnv} {tr : Traits} {o o' : RulesObj} {regex : List Nat} {id userId : Nat}
    (h : o.pushInitial E tr regex id userId = (o', .ok ())) :
    id ≠ 0 ∧ id ≠ tr.npos ∧ ∃ tss, tokenise E o.flags o.macros false regex = .ok tss ∧ tss ≠ [] ∧
      o'.states = o.states.modify 0 (· ++ tss.map fun ts => ⟨ts, id, userId, 0, tr.npos, false⟩) ∧
      o'.flags = o.flags ∧ o'.macros = o.macros ∧ o'.statemap = o.statemap ∧ o'.names = o.names := by
  unfold RulesObj.pushInitial at h
  split at h
  · simp at h
  rename_i hid
  split at h
  · simp at h
  rename_i tss ht
  split at h
  · rename_i first last hf hl
    split at h
    · simp at h
    split at h
    · simp at h
    simp only [Prod.mk.injEq, and_true] at h
    unfold checkId at hid
    split at hid
    · cases hid
    split at hid
    · cases hid
    refine ⟨by assumption, by assumption, tss, ht, ?_, ?_⟩
    · rintro rfl; cases hf
    · rw [← h]; exact ⟨rfl, rfl, rfl, rfl, rfl⟩
  · simp at h

/-- C32.  A rule for named states that is taken: the rules are appended to each of the
states, once for each time the state is named. -/
theorem C32_push_named_appends {E : TokEnv} {tr : Traits} {o o' : RulesObj} {curr regex new : List Nat} {id : Option Nat} {userId : Nat}
    (h : o.pushNamed E tr curr regex id new userId = (o', .ok ())) :
    id ≠ some 0 ∧ id ≠ some tr.npos ∧ ∃ t ids currs, RulesObj.parseTarget new = .ok t ∧ o.targetIds tr t = .ok ids ∧
      o.currStates tr curr = .ok currs ∧ (currs = [] ∨ ∃ tss, tokenise E o.flags o.macros false regex = .ok tss ∧
      ∀ i : Nat, o'.states[i]? = o.states[i]?.map
        (· ++ (List.replicate (currs.count i) (tss.map (RulesObj.mkRule tr t ids i (id.getD 0) userId))).flatten)) ∧
      o'.flags = o.flags ∧ o'.macros = o.macros ∧ o'.statemap = o.statemap ∧ o'.names = o.names := by
  have hsame := pushNamed_same E tr curr regex id new userId o
  rw [h] at hsame
  unfold RulesObj.pushNamed at h
  split at h
  · simp at h
  · rename_i t ids currs hplan
    have hid : id ≠ some 0 ∧ id ≠ some tr.npos := by
      unfold RulesObj.pushPlan at hplan
      constructor
      · rintro rfl
        simp only [checkId, if_true, throw_] at hplan
        cases hplan
      · rintro rfl
        simp only [checkId, throw_] at hplan
        split at hplan
        · cases hplan
        · cases hplan
    have hp : RulesObj.parseTarget new = .ok t ∧ o.targetIds tr t = .ok ids ∧ o.currStates tr curr = .ok currs := by
      unfold RulesObj.pushPlan at hplan
      have fin : ∀ (x : M Unit), ((x >>= fun _ => RulesObj.parseTarget new >>= fun t => o.targetIds tr t >>= fun ids =>
          o.currStates tr curr >>= fun currs => Except.ok (t, ids, currs)) = .ok (t, ids, currs)) →
          RulesObj.parseTarget new = .ok t ∧ o.targetIds tr t = .ok ids ∧ o.currStates tr curr = .ok currs := by
        intro x hx
        cases x with
        | error e => cases hx
        | ok u =>
          cases ht : RulesObj.parseTarget new with
          | error e => rw [ht] at hx; cases hx
          | ok t' =>
            rw [ht] at hx
            replace hx : (o.targetIds tr t' >>= fun ids => o.currStates tr curr >>= fun currs => Except.ok (t', ids, currs)) = .ok (t, ids, currs) := hx
            cases hi : o.targetIds tr t' with
            | error e => rw [hi] at hx; cases hx
            | ok ids' =>
              rw [hi] at hx
              replace hx : (o.currStates tr curr >>= fun currs => Except.ok (t', ids', currs)) = .ok (t, ids, currs) := hx
              cases hcu : o.currStates tr curr with
              | error e => rw [hcu] at hx; cases hx
              | ok cu => rw [hcu] at hx; cases hx; exact ⟨rfl, hi, rfl⟩
      cases id with
      | none => exact fin (.ok ()) hplan
      | some i => exact fin (checkId tr i) hplan
    refine ⟨hid.1, hid.2, t, ids, currs, hp.1, hp.2.1, hp.2.2, ?_, ?_⟩
    · cases currs with
      | nil => exact .inl rfl
      | cons c currs =>
        refine .inr ?_
        cases ht : tokenise E o.flags o.macros false regex with
        | error e =>
          unfold RulesObj.pushLoop at h
          rw [ht] at h
          simp at h
        | ok tss => exact ⟨tss, rfl, (pushLoop_done _ o ht o' h).2.2⟩
    · cases currs with
      | nil =>
        simp only [RulesObj.pushLoop, Prod.mk.injEq] at h
        rw [← h.1]; exact ⟨rfl, rfl, rfl, rfl⟩
      | cons c currs =>
        cases ht : tokenise E o.flags o.macros false regex with
        | error e =>
          unfold RulesObj.pushLoop at h
          rw [ht] at h
          simp at h
        | ok tss =>
          have := pushLoop_done _ o ht o' h
          exact ⟨this.1, this.2.1, hsame.statemap, hsame.names⟩

/-- C32.  The states meant by one name and by `*`. -/
theorem C32_states_named {E : TokEnv} {tr : Traits} {flags : ReFlags} {cs : List Call} {o : RulesObj}
    (h : Calls E tr (RulesObj.new tr flags) cs o) (hn : o.states.length ≤ tr.npos) :
    o.currStates tr [42] = .ok (List.range o.states.length) ∧
    ∀ (name : List Nat) (i : Nat), i < o.states.length → o.stateName tr i = some name → 44 ∉ name → name ≠ [42] →
      o.currStates tr name = .ok [i] := by
  have hs := calls_statesOk h (new_statesOk tr flags).1
  have hl := hs.states
  refine ⟨?_, ?_⟩
  · rw [RulesObj.currStates, if_pos rfl, hs.map, numbered_length, ← hl, toId_small hn]
  · intro name i hi hname hcomma hstar
    rw [stateName_eq i (by omega)] at hname
    have hv := hs.valid name (List.mem_of_getElem? hname)
    have hf : find name o.statemap = some i := by
      rw [hs.map, find_numbered _ _ _ _ hs.nodup]
      exact ⟨i, hname, by rw [Nat.zero_add, toId_small (by omega)]⟩
    have hne : name ≠ [] := by rintro rfl; revert hv; decide
    have hsplit : RulesObj.splitComma name = [name] := by
      clear hname hstar hv hf
      induction name with
      | nil => exact absurd rfl hne
      | cons c cs ih =>
        cases cs with
        | nil => unfold RulesObj.splitComma; rw [if_neg (fun e => hcomma (by simp [e]))]
        | cons d ds =>
          unfold RulesObj.splitComma
          · rw [if_neg (fun e => hcomma (by simp [e])), ih (fun hm => hcomma (by simp [hm])) (by simp)]
    rw [RulesObj.currStates, if_neg hstar, hsplit]
    simp only [List.mapM_cons, List.mapM_nil, RulesObj.known, hv, hf]
    rfl

/-- C32 has content: an unbalanced regex, the reserved id, an unknown state, an unknown
target, an undefined macro. -/
example : (Ex.obj.pushInitial Ex.env Ex.tr (chars "(a") 5 0).2.isOk = false ∧
    (Ex.obj.pushInitial Ex.env Ex.tr (chars "a") Ex.tr.npos 0).2.isOk = false ∧
    (Ex.obj.pushNamed Ex.env Ex.tr (chars "STR,NONE") (chars "a") (some 5) (chars ".") 0).2.isOk = false ∧
    (Ex.obj.pushNamed Ex.env Ex.tr (chars "*") (chars "a") (some 5) (chars "NONE") 0).2.isOk = false ∧
    (Ex.obj.pushNamed Ex.env Ex.tr (chars "STR,INITIAL") (chars "a{NONE}") (some 5) (chars ".") 0).2.isOk = false ∧
    (Ex.obj.pushNamed Ex.env Ex.tr (chars "STR,INITIAL") (chars "a{D}") (some 5) (chars ".") 0).2.isOk = true := by
  decide +kernel

/-- C32 does not hold for macros: `insert_macro` enters the name before it reads the
regex.  After the refused `(` the name `M` is there, with no tokens at all, and a rule that
uses it reads the first of them. -/
theorem C32_refused_macro_stays :
    let o := (Ex.obj0.insertMacro Ex.env (chars "M") (chars "(")).1
    (Ex.obj0.insertMacro Ex.env (chars "M") (chars "(")).2.toOption = none ∧ o ≠ Ex.obj0 ∧
      (o.insertMacro Ex.env (chars "M") (chars "a")).2.toOption = none ∧
      (∃ what, (o.pushInitial Ex.env Ex.tr (chars "{M}") 1 0).2 = .error (.ub what)) := by
  refine ⟨by decide +kernel, by decide +kernel, by decide +kernel, _, rfl⟩

/-! ### C46: regex texts -/

/-- C46.  Whatever has been done to the rules object before (macro definitions that failed
half way excepted), a rule for `INITIAL` is taken or refused: no text makes `push` read
outside a container, dereference something that is not there, or run for ever. -/
theorem C46_push_total {E : TokEnv} (hE : TokEnvOk E) {tr : Traits} (hnp : tr.npos ≠ 0) {flags : ReFlags} {cs : List Call} {o : RulesObj}
    (h : Careful E tr (RulesObj.new tr flags) cs o) {regex : List Nat} (hx : TextOk E regex) (hp : PlainCounts regex) (id userId : Nat) :
    Total (fun _ => True) (o.pushInitial E tr regex id userId).2 :=
  (pushInitial_ok hE (careful_objOk hE hnp h (new_objOk E tr flags)) hx hp id userId).2

/-- C46.  The same for rules in named states, with any text for the states and for the
target. -/
theorem C46_push_named_total {E : TokEnv} (hE : TokEnvOk E) {tr : Traits} (hnp : tr.npos ≠ 0) {flags : ReFlags} {cs : List Call} {o : RulesObj}
    (h : Careful E tr (RulesObj.new tr flags) cs o) {regex : List Nat} (hx : TextOk E regex) (hp : PlainCounts regex)
    (currDfa : List Nat) (id : Option Nat) (newDfa : List Nat) (userId : Nat) :
    Total (fun _ => True) (o.pushNamed E tr currDfa regex id newDfa userId).2 :=
  (pushNamed_ok hE hnp (careful_objOk hE hnp h (new_objOk E tr flags)) hx hp currDfa id newDfa userId).2

/-- C46.  The same for macros, unless the macro refers to itself. -/
theorem C46_insert_macro_total {E : TokEnv} (hE : TokEnvOk E) {tr : Traits} (hnp : tr.npos ≠ 0) {flags : ReFlags} {cs : List Call} {o : RulesObj}
    (h : Careful E tr (RulesObj.new tr flags) cs o) {name regex : List Nat} (hx : TextOk E regex) (hp : PlainCounts regex)
    (hself : ¬ Refers name regex) : Total (fun _ => True) (o.insertMacro E name regex).2 :=
  (insertMacro_ok hE (careful_objOk hE hnp h (new_objOk E tr flags)) hx hp).2.resolve_right hself

/-- C46 has content: the environments are sane, the object has macros and states, and
the texts are taken or refused. -/
example : TokEnvOk Ex.env ∧ TokEnvOk Ex.env2 ∧ Careful Ex.env Ex.tr Ex.obj0 Ex.ruleCalls Ex.obj ∧
    (∀ s ∈ ["({D}|x){2,3}?\"q\"[a-z]", "a{3,2}", "[\\x4", "(?i:a)(", "[[:alpha:]]{-}[x]"], TextOk Ex.env (chars s) ∧ Ex.noPad (chars s) = true) ∧
    (Ex.obj.pushInitial Ex.env Ex.tr (chars "({D}|x){2,3}?") 5 0).2.isOk = true ∧
    (Ex.obj.pushInitial Ex.env Ex.tr (chars "[[:alpha:]]{-}[x]") 5 0).2.isOk = true ∧
    (Ex.obj.pushInitial Ex.env Ex.tr (chars "a{3,2}") 5 0).2.isOk = false ∧
    (Ex.obj.pushInitial Ex.env Ex.tr (chars "[\\x4") 5 0).2.isOk = false ∧
    (Ex.obj.insertMacro Ex.env (chars "W") (chars "{D}x")).2.isOk = true :=
  ⟨Ex.envOk, Ex.envOk2, Ex.careful, by unfold TextOk; decide +kernel, by decide +kernel⟩

/-- C46 needs its last hypothesis: a macro that refers to itself is undefined behaviour. -/
theorem C46_self_reference : Refers (chars "A") (chars "{A}") ∧
    ∃ what, (Ex.obj0.insertMacro Ex.env (chars "A") (chars "{A}")).2 = .error (.ub what) :=
  ⟨⟨[], [], rfl⟩, _, rfl⟩

/-! ### C45: from regex texts to tokens -/

/-- C45.  Lexing with a machine built from rules given as texts never reads outside its
tables, the input or the stack, whatever the texts are and however the object was used
before. -/
theorem C45_texts_to_safe_lexer {E : TokEnv} (hE : TokEnvOk E) {tr : Traits} (hnp : tr.npos ≠ 0) {flags : ReFlags} {cs : List Call} {o : RulesObj}
    (h : Careful E tr (RulesObj.new tr flags) cs o) {addr : Nat → Nat} (L : Lexer) (hn : L.npos = tr.npos)
    (hb : buildTemp tr addr o.rules = .ok L.sm) (hf : L.flags.recursive = true ∨ NoPops L.sm)
    (hin : L.bytes = 1 → ∀ c ∈ L.inp, c < 256) {r : Results} (hr : Ready L.sm L.inp r) {rs : List Results} (hc : L.Calls r rs) (what : String) :
    ∀ r' ∈ r :: rs, ¬ L.Call r' (.error (.ub what)) :=
  C14_built_lexing_safe L hn (obj_targets (careful_objOk hE hnp h (new_objOk E tr flags))) hb hf hin hr hc what

/-- C45.  If the generator takes the rules, each of them is in the grammar. -/
theorem C45_texts_in_grammar {E : TokEnv} (hE : TokEnvOk E) {tr : Traits} (hnp : tr.npos ≠ 0) {flags : ReFlags} {cs : List Call} {o : RulesObj}
    (h : Careful E tr (RulesObj.new tr flags) cs o) {addr : Nat → Nat} {sm : Internals} (hb : buildTemp tr addr o.rules = .ok sm) :
    ∀ rs ∈ o.states, ∀ r ∈ rs, ∃ e, Denotes r.regex e :=
  C44_built_only_if_in_grammar (obj_fromTokeniser (careful_objOk hE hnp h (new_objOk E tr flags))) hb

/-- C45.  Rules given as texts, over any character type, without `$` and non-greedy operators: the
lexer returns exactly what the rules say, in the sense of the expressions they denote. -/
theorem C45_texts_to_tokens {E : TokEnv} (hE : TokEnvOk E) {tr : Traits} (hmax : E.max + 1 = charsOf tr) (hnpos : 263 ≤ tr.npos)
    {flags : ReFlags} {cs : List Call} {o : RulesObj} (h : Careful E tr (RulesObj.new tr flags) cs o) (hpl : PlainRules tr o)
    {addr : Nat → Nat} {sm : Internals} (hb : buildTemp tr addr o.rules = .ok sm)
    {f : Flags} (hf : f.recursive = true ∨ ∀ rs ∈ o.states, ∀ r ∈ rs, r.popDfa = false) :
    ∃ xss : List (List SRule), xss.map (·.map (·.1)) = o.states ∧ (∀ xs ∈ xss, ∀ x ∈ xs, Denotes x.1.regex x.2) ∧
      ∀ {inp : List Nat}, (∀ c ∈ inp, c < charsOf tr) → ∀ {r : Results}, r.second ≤ r.eoi → ROk ⟨xss, tr.npos, 0, f, inp⟩ r → ∀ out : M Results,
        Returns f tr.npos (bytesOf tr) sm inp r out ↔
          LexEnv.Lex ⟨xss, tr.npos, 0, f, inp⟩ { r with first := r.second } r.second out := by
  have ho := careful_objOk hE (by omega) h (new_objOk E tr flags)
  obtain ⟨xss, hx, hd⟩ := r_list_choose2 o.states (C45_texts_in_grammar hE (by omega) h hb)
  refine ⟨xss, hx, hd, ?_⟩
  intro inp hinp r hp hr out
  have hR := obj_ruleSet hmax ho hpl hx hd
  have hlen : xss.length = o.states.length := by rw [← hx]; simp
  have hmem : ∀ xs ∈ xss, ∀ x ∈ xs, ∃ rs ∈ o.states, x.1 ∈ rs := fun xs hxs x hxx =>
    ⟨xs.map (·.1), hx ▸ List.mem_map_of_mem hxs, List.mem_map_of_mem hxx⟩
  have hT := obj_targets ho
  refine C43_lookup_refines_rules hnpos hR ⟨?_, ?_⟩ hb hinp hp hr out
  · intro xs hxs x hxx
    obtain ⟨rs, h1, h2⟩ := hmem xs hxs x hxx
    rcases (hT rs h1 x.1 h2).1 with hpop | hlt
    · rcases hf with hf | hf
      · exact .inl ⟨hf, hpop⟩
      · rw [hf rs h1 x.1 h2] at hpop; cases hpop
    · exact .inr (by show _ < xss.length; rw [hlen]; exact hlt)
  · intro xs hxs x hxx hne
    obtain ⟨rs, h1, h2⟩ := hmem xs hxs x hxx
    rcases (hT rs h1 x.1 h2).2 with hpush | hlt
    · exact absurd hpush hne
    · show _ < xss.length; rw [hlen]; exact hlt

namespace Ex
def hasB (P : TT → Bool) (r : Rule) : Bool := r.regex.any fun t => P t.type
def repeatedBol : List Tok → Bool
  | b :: d :: ts => (b.type == .bol && [TT.zeroormore, .azeroormore, .oneormore, .aoneormore, .repeatn, .arepeatn].contains d.type) ||
      repeatedBol (d :: ts)
  | _ => false

theorem repeatedBol_sound : ∀ (a : List Tok) {b d : Tok} {c : List Tok}, b.type = .bol →
    d.type ∈ [TT.zeroormore, .azeroormore, .oneormore, .aoneormore, .repeatn, .arepeatn] → repeatedBol (a ++ b :: d :: c) = true
  | [], b, d, c, hb, hd => by
    simp only [List.nil_append, repeatedBol, hb, beq_self_eq_true, Bool.true_and, Bool.or_eq_true, List.contains_eq_mem, decide_eq_true_eq]
    exact .inl hd
  | [x], b, d, c, hb, hd => by
    rw [List.singleton_append, repeatedBol, Bool.or_eq_true]
    exact .inr (repeatedBol_sound [] hb hd)
  | x :: y :: a, b, d, c, hb, hd => by
    simp only [List.cons_append, repeatedBol, Bool.or_eq_true]
    exact .inr (repeatedBol_sound (y :: a) hb hd)

def planesB (tr : Traits) (r : Rule) : Bool :=
  !tr.compressed || !tr.char24 || r.regex.all fun t => t.type != .charset || t.str.all fun x => decide (FewPlanes x)

theorem plainRules_of {tr : Traits} {o : RulesObj}
    (h : ∀ rs ∈ o.states, (∀ r ∈ rs, hasB isLazy r = false ∧ hasB (· == .eol) r = false ∧ repeatedBol r.regex = false ∧
        planesB tr r = true) ∧
      (rs.map fun r => ((r.regex.filter (·.type == .charset)).map fun t => slotsOf tr t.str).sum).sum + 2 ≤ tr.npos) :
    PlainRules tr o where
  greedy rs hrs r hr := by
    rintro ⟨t, ht, hl⟩
    have := ((h rs hrs).1 r hr).1
    rw [hasB, List.any_eq_false] at this
    exact this t ht hl
  noEol rs hrs r hr := by
    rintro ⟨t, ht, hl⟩
    have := ((h rs hrs).1 r hr).2.1
    rw [hasB, List.any_eq_false] at this
    exact this t ht (by simp [hl])
  once rs hrs r hr := by
    rintro ⟨b, d, ⟨a, c, e⟩, hb, hd⟩
    have := ((h rs hrs).1 r hr).2.2.1
    rw [← e, List.append_assoc] at this
    have h2 := repeatedBol_sound a (c := c) hb hd
    rw [List.cons_append, List.cons_append, List.nil_append] at this
    rw [this] at h2
    cases h2
  planes h1 h2 rs hrs r hr t ht hc x hx := by
    have := ((h rs hrs).1 r hr).2.2.2
    simp only [planesB, h1, h2, Bool.not_true, Bool.false_or, List.all_eq_true, Bool.or_eq_true, bne_iff_ne, ne_eq,
      decide_eq_true_eq] at this
    exact (this t ht).resolve_left (fun h => h hc) x hx
  count rs hrs := (h rs hrs).2
end Ex

set_option maxRecDepth 20000 in
/-- C45 has content: an object with two states, a macro, a rule that pushes and one that
pops; it is built, and the flags it needs are there. -/
example : Careful Ex.env Ex.tr Ex.obj0 Ex.ruleCalls Ex.obj ∧ PlainRules Ex.tr Ex.obj ∧ Ex.obj.states.map (·.length) = [4, 2] ∧
    (buildTemp Ex.tr id Ex.obj.rules).isOk = true ∧ Ex.obj.features = [37, 36] :=
  ⟨Ex.careful, Ex.plainRules_of (by decide +kernel), by decide +kernel⟩

end Lexertl.Props
