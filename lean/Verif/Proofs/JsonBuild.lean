import Verif.Proofs.JsonMachine
import Verif.Proofs.Slim

/-
The generator returns for the rules of the example json: the slim generator of `Proofs/Slim` is
run by the kernel, one lexer state at a time, with the values between the steps written out.
-/
set_option maxRecDepth 100000
set_option Elab.async false

namespace Lexertl.Json

open Spec Props

theorem opt_ok {α : Type} {x : M α} {a : α} (h : x.toOption = some a) : x = .ok a := by
  cases x with
  | ok b => exact congrArg _ (Option.some.inj h)
  | error e => cases h

def strToks : List Tok :=
  [⟨.begin, [], []⟩, ⟨.charset, [], [(34, 34)]⟩, ⟨.openparen, [], []⟩, ⟨.charset, [], [(32, 33), (35, 91), (93, 1114111)]⟩, 
   ⟨.or_, [], []⟩, ⟨.charset, [], [(92, 92)]⟩, ⟨.openparen, [], []⟩, 
   ⟨.charset, [], [(34, 34), (47, 47), (92, 92), (98, 98), (102, 102), (110, 110), (114, 114), (116, 116)]⟩, ⟨.or_, [], []⟩, 
   ⟨.charset, [], [(117, 117)]⟩, ⟨.charset, [], [(48, 57), (65, 70), (97, 102)]⟩, ⟨.repeatn, [52], []⟩, ⟨.closeparen, [], []⟩, 
   ⟨.closeparen, [], []⟩, ⟨.zeroormore, [], []⟩, ⟨.charset, [], [(34, 34)]⟩, ⟨.end_, [], []⟩]
def numToks : List Tok :=
  [⟨.begin, [], []⟩, ⟨.charset, [], [(45, 45)]⟩, ⟨.opt, [], []⟩, ⟨.openparen, [], []⟩, ⟨.charset, [], [(48, 48)]⟩, 
   ⟨.or_, [], []⟩, ⟨.charset, [], [(49, 57)]⟩, ⟨.charset, [], [(48, 57)]⟩, ⟨.zeroormore, [], []⟩, ⟨.closeparen, [], []⟩, 
   ⟨.openparen, [], []⟩, ⟨.charset, [], [(46, 46)]⟩, ⟨.charset, [], [(48, 57)]⟩, ⟨.oneormore, [], []⟩, ⟨.closeparen, [], []⟩, 
   ⟨.opt, [], []⟩, ⟨.openparen, [], []⟩, ⟨.charset, [], [(69, 69), (101, 101)]⟩, ⟨.charset, [], [(43, 43), (45, 45)]⟩, 
   ⟨.opt, [], []⟩, ⟨.charset, [], [(48, 57)]⟩, ⟨.oneormore, [], []⟩, ⟨.closeparen, [], []⟩, ⟨.opt, [], []⟩, ⟨.end_, [], []⟩]
def boolToks : List Tok :=
  [⟨.begin, [], []⟩, ⟨.charset, [], [(116, 116)]⟩, ⟨.charset, [], [(114, 114)]⟩, ⟨.charset, [], [(117, 117)]⟩, 
   ⟨.charset, [], [(101, 101)]⟩, ⟨.or_, [], []⟩, ⟨.charset, [], [(102, 102)]⟩, ⟨.charset, [], [(97, 97)]⟩, 
   ⟨.charset, [], [(108, 108)]⟩, ⟨.charset, [], [(115, 115)]⟩, ⟨.charset, [], [(101, 101)]⟩, ⟨.end_, [], []⟩]
def nullToks : List Tok :=
  [⟨.begin, [], []⟩, ⟨.charset, [], [(110, 110)]⟩, ⟨.charset, [], [(117, 117)]⟩, ⟨.charset, [], [(108, 108)]⟩, 
   ⟨.charset, [], [(108, 108)]⟩, ⟨.end_, [], []⟩]

/-- The tokens of the regular expressions. -/
def Form.toks : Form → List Tok
  | .str => strToks
  | .num => numToks
  | .bool => boolToks
  | .null => nullToks
  | .ch c => [⟨.begin, [], []⟩, ⟨.charset, [], [(c, c)]⟩, ⟨.end_, [], []⟩]
  | .ws =>
  [⟨.begin, [], []⟩, ⟨.charset, [], [(9, 10), (13, 13), (32, 32)]⟩, ⟨.oneormore, [], []⟩, ⟨.end_, [], []⟩]

def Entry.stored (e : Entry) : Rule := ⟨e.form.toks, e.id, 65535, e.next, e.push, e.pop⟩

/-- The rules after the macros. -/
def withMacros : RulesObj := { RulesObj.new Ex.tr24 {} with
  macros := [(chars "STRING", strToks), (chars "NUMBER", numToks), (chars "BOOL", boolToks), (chars "NULL", nullToks)] }

def stored : Rules := ⟨table.map (·.map Entry.stored), [36, 4, 36, 4, 4, 36, 36, 36, 36, 36], 0, false, false⟩

theorem macros_eq : (calls.take 4).foldl (fun o c => (c.run E Ex.tr24 o).1) (RulesObj.new Ex.tr24 {}) = withMacros := by decide +kernel

theorem rest_eq : ((calls.drop 4).foldl (fun o c => (c.run E Ex.tr24 o).1) withMacros).rules = stored := by decide +kernel

theorem obj_rules : obj.rules = stored := by
  have : obj = (calls.drop 4).foldl (fun o c => (c.run E Ex.tr24 o).1) ((calls.take 4).foldl (fun o c => (c.run E Ex.tr24 o).1) (RulesObj.new Ex.tr24 {})) := by
    rw [← List.foldl_append, List.take_append_drop]
    rfl
  rw [this, macros_eq, rest_eq]

/-- One lexer state, with its tree in two parts. -/
theorem loop_one {rs : List Rule} {f : Nat} {n : Nat} {heap : Heap} {used : List Nat} {uid : Nat} {q p : PState} {qr root : Tree} {qu uid' : Nat}
    {used' : List Nat} (hf : hasBit f 1 = false) (hn : rs.take (n + 1) ≠ []) (h1 : (buildTree Ex.tr24 false (rs.take (n + 1)) heap uid).toOption = some (q, qr, qu))
    (h2 : (buildTreeRest Ex.tr24 false (rs.drop (n + 1)) q qr qu).toOption = some (p, root, uid'))
    (h3 : (checkZeroLen false p.heap root).toOption = some ())
    (h4 : (Slim.dfa Ex.tr24 false id p.heap p.charsets p.crId p.nlId root used).toOption.map (fun s => (decide (s.seen.length < 60000), s.used)) = some (true, used')) :
    Slim.loop Ex.tr24 id false false [rs] [f] (heap, used, uid) = .ok (p.heap, used', uid') := by
  have ht : buildTree Ex.tr24 false rs heap uid = .ok (p, root, uid') := by
    cases rs with
    | nil => exact absurd rfl hn
    | cons r rs =>
      have h1' := opt_ok h1
      have h2' := opt_ok h2
      simp only [List.take_succ_cons, List.drop_succ_cons, buildTree] at h1' h2' ⊢
      rw [← List.take_append_drop n rs]
      simp only [Slim.tree_append]
      rw [← bind_assoc, h1']
      exact h2'
  cases hd : Slim.dfa Ex.tr24 false id p.heap p.charsets p.crId p.nlId root used with
  | error e => rw [hd] at h4; cases h4
  | ok s =>
    rw [hd] at h4
    have h5 := Option.some.inj h4
    simp only [Prod.mk.injEq, decide_eq_true_eq] at h5
    unfold Slim.loop
    rw [if_neg (fun h => hn (by rw [h]; rfl))]
    simp only [List.headD_cons, hf, ht, bind, Except.bind, opt_ok h3, hd]
    rw [if_neg (by have : Ex.tr24.npos = 65535 := rfl
                   omega), h5.2]
    rfl

def heap4 : Heap := [⟨.leaf 0 .yes, [1]⟩, ⟨.leaf 0 .yes, [2]⟩, ⟨.leaf 1 .yes, [3]⟩, ⟨.fin 4 65535 1 2 1 false .yes, []⟩, ⟨.leaf 0 .yes, [5]⟩, ⟨.leaf 0
  .yes, [6]⟩, ⟨.leaf 2 .yes, [7]⟩, ⟨.fin 7 65535 2 7 1 false .yes, []⟩, ⟨.leaf 0 .yes, [9]⟩, ⟨.leaf 0 .yes, [10]⟩, ⟨.leaf 3 .yes, [11, 14]⟩, ⟨.leaf 0
  .hard, [12]⟩, ⟨.leaf 0 .yes, [13]⟩, ⟨.leaf 3 .yes, [11, 14]⟩, ⟨.fin 65534 65535 3 0 65535 false .yes, []⟩, ⟨.leaf 0 .yes, [16]⟩, ⟨.leaf 0 .yes,
  [17]⟩, ⟨.leaf 1 .yes, [18, 21]⟩, ⟨.leaf 0 .hard, [19]⟩, ⟨.leaf 0 .yes, [20]⟩, ⟨.leaf 1 .yes, [18, 21]⟩, ⟨.fin 65534 65535 4 1 65535 false .yes, []⟩,
  ⟨.leaf 0 .yes, [23]⟩, ⟨.leaf 0 .yes, [24]⟩, ⟨.leaf 1 .yes, [25]⟩, ⟨.fin 6 65535 5 65535 65535 true .yes, []⟩, ⟨.leaf 0 .yes, [27]⟩, ⟨.leaf 0 .yes,
  [28]⟩, ⟨.leaf 2 .yes, [29, 32, 35, 38, 41, 44, 65]⟩, ⟨.leaf 0 .hard, [30]⟩, ⟨.leaf 0 .yes, [31]⟩, ⟨.leaf 3 .yes, [29, 32, 35, 38, 41, 44, 65]⟩,
  ⟨.leaf 0 .hard, [33]⟩, ⟨.leaf 4 .yes, [34]⟩, ⟨.leaf 5 .yes, [29, 32, 35, 38, 41, 44, 65]⟩, ⟨.leaf 6 .hard, [36]⟩, ⟨.leaf 5 .yes, [37]⟩, ⟨.leaf 5
  .yes, [29, 32, 35, 38, 41, 44, 65]⟩, ⟨.leaf 7 .hard, [39]⟩, ⟨.leaf 8 .yes, [40]⟩, ⟨.leaf 5 .yes, [29, 32, 35, 38, 41, 44, 65]⟩, ⟨.leaf 7 .hard,
  [42]⟩, ⟨.leaf 9 .yes, [43]⟩, ⟨.leaf 5 .yes, [29, 32, 35, 38, 41, 44, 65]⟩, ⟨.leaf 0 .hard, [45]⟩, ⟨.leaf 0 .yes, [46]⟩, ⟨.leaf 10 .yes, [47, 50]⟩,
  ⟨.leaf 0 .yes, [48]⟩, ⟨.leaf 0 .yes, [49]⟩, ⟨.leaf 11 .yes, [29, 32, 35, 38, 41, 44, 65]⟩, ⟨.leaf 0 .yes, [51]⟩, ⟨.leaf 0 .yes, [52]⟩, ⟨.leaf 12
  .yes, [53]⟩, ⟨.leaf 0 .yes, [54]⟩, ⟨.leaf 0 .yes, [55]⟩, ⟨.leaf 13 .yes, [56]⟩, ⟨.leaf 0 .yes, [57]⟩, ⟨.leaf 0 .yes, [58]⟩, ⟨.leaf 13 .yes, [59]⟩,
  ⟨.leaf 0 .yes, [60]⟩, ⟨.leaf 0 .yes, [61]⟩, ⟨.leaf 13 .yes, [62]⟩, ⟨.leaf 0 .yes, [63]⟩, ⟨.leaf 0 .yes, [64]⟩, ⟨.leaf 13 .yes, [29, 32, 35, 38, 41,
  44, 65]⟩, ⟨.leaf 0 .yes, [66]⟩, ⟨.leaf 0 .yes, [67]⟩, ⟨.leaf 2 .yes, [68]⟩, ⟨.fin 5 65535 6 4 65535 false .yes, []⟩, ⟨.leaf 0 .yes, [70]⟩, ⟨.leaf 0
  .yes, [71]⟩, ⟨.leaf 14 .yes, [72, 75]⟩, ⟨.leaf 0 .hard, [73]⟩, ⟨.leaf 0 .yes, [74]⟩, ⟨.leaf 14 .yes, [72, 75]⟩, ⟨.fin 65534 65535 7 2 65535 false
  .yes, []⟩, ⟨.leaf 0 .yes, [77]⟩, ⟨.leaf 0 .yes, [78]⟩, ⟨.leaf 1 .yes, [79, 82, 85, 88, 91, 94, 115]⟩, ⟨.leaf 0 .hard, [80]⟩, ⟨.leaf 0 .yes, [81]⟩,
  ⟨.leaf 2 .yes, [79, 82, 85, 88, 91, 94, 115]⟩, ⟨.leaf 0 .hard, [83]⟩, ⟨.leaf 3 .yes, [84]⟩, ⟨.leaf 4 .yes, [79, 82, 85, 88, 91, 94, 115]⟩, ⟨.leaf 5
  .hard, [86]⟩, ⟨.leaf 4 .yes, [87]⟩, ⟨.leaf 4 .yes, [79, 82, 85, 88, 91, 94, 115]⟩, ⟨.leaf 6 .hard, [89]⟩, ⟨.leaf 7 .yes, [90]⟩, ⟨.leaf 4 .yes, [79,
  82, 85, 88, 91, 94, 115]⟩, ⟨.leaf 6 .hard, [92]⟩, ⟨.leaf 8 .yes, [93]⟩, ⟨.leaf 4 .yes, [79, 82, 85, 88, 91, 94, 115]⟩, ⟨.leaf 0 .hard, [95]⟩, ⟨.leaf
  0 .yes, [96]⟩, ⟨.leaf 9 .yes, [97, 100]⟩, ⟨.leaf 0 .yes, [98]⟩, ⟨.leaf 0 .yes, [99]⟩, ⟨.leaf 10 .yes, [79, 82, 85, 88, 91, 94, 115]⟩, ⟨.leaf 0 .yes,
  [101]⟩, ⟨.leaf 0 .yes, [102]⟩, ⟨.leaf 11 .yes, [103]⟩, ⟨.leaf 0 .yes, [104]⟩, ⟨.leaf 0 .yes, [105]⟩, ⟨.leaf 12 .yes, [106]⟩, ⟨.leaf 0 .yes, [107]⟩,
  ⟨.leaf 0 .yes, [108]⟩, ⟨.leaf 12 .yes, [109]⟩, ⟨.leaf 0 .yes, [110]⟩, ⟨.leaf 0 .yes, [111]⟩, ⟨.leaf 12 .yes, [112]⟩, ⟨.leaf 0 .yes, [113]⟩, ⟨.leaf 0
  .yes, [114]⟩, ⟨.leaf 12 .yes, [79, 82, 85, 88, 91, 94, 115]⟩, ⟨.leaf 0 .yes, [116]⟩, ⟨.leaf 0 .yes, [117]⟩, ⟨.leaf 1 .yes, [118]⟩, ⟨.fin 5 65535 8 4
  65535 false .yes, []⟩, ⟨.leaf 0 .yes, [120]⟩, ⟨.leaf 0 .yes, [121]⟩, ⟨.leaf 13 .yes, [122, 125]⟩, ⟨.leaf 0 .hard, [123]⟩, ⟨.leaf 0 .yes, [124]⟩,
  ⟨.leaf 13 .yes, [122, 125]⟩, ⟨.fin 65534 65535 9 3 65535 false .yes, []⟩, ⟨.leaf 0 .yes, [127]⟩, ⟨.leaf 0 .yes, [128]⟩, ⟨.leaf 1 .yes, [129]⟩, ⟨.fin
  65534 65535 10 5 65535 false .yes, []⟩, ⟨.leaf 0 .yes, [131]⟩, ⟨.leaf 0 .yes, [132]⟩, ⟨.leaf 2 .yes, [133, 136]⟩, ⟨.leaf 0 .hard, [134]⟩, ⟨.leaf 0
  .yes, [135]⟩, ⟨.leaf 2 .yes, [133, 136]⟩, ⟨.fin 65534 65535 11 4 65535 false .yes, []⟩]

theorem part0 : (Slim.loop Ex.tr24 id false false (stored.states.take 5) (stored.features.take 5) ([], [], 0)).toOption =
    some (heap4, [1, 2, 3, 4, 5, 6, 7, 8, 9, 10, 11], 11) := by decide +kernel

def heapm5 : Heap := [⟨.leaf 0 .yes, [1]⟩, ⟨.leaf 0 .yes, [2]⟩, ⟨.leaf 1 .yes, [3]⟩, ⟨.fin 4 65535 1 2 1 false .yes, []⟩, ⟨.leaf 0 .yes, [5]⟩, ⟨.leaf
  0 .yes, [6]⟩, ⟨.leaf 2 .yes, [7]⟩, ⟨.fin 7 65535 2 7 1 false .yes, []⟩, ⟨.leaf 0 .yes, [9]⟩, ⟨.leaf 0 .yes, [10]⟩, ⟨.leaf 3 .yes, [11, 14]⟩, ⟨.leaf
  0 .hard, [12]⟩, ⟨.leaf 0 .yes, [13]⟩, ⟨.leaf 3 .yes, [11, 14]⟩, ⟨.fin 65534 65535 3 0 65535 false .yes, []⟩, ⟨.leaf 0 .yes, [16]⟩, ⟨.leaf 0 .yes,
  [17]⟩, ⟨.leaf 1 .yes, [18, 21]⟩, ⟨.leaf 0 .hard, [19]⟩, ⟨.leaf 0 .yes, [20]⟩, ⟨.leaf 1 .yes, [18, 21]⟩, ⟨.fin 65534 65535 4 1 65535 false .yes, []⟩,
  ⟨.leaf 0 .yes, [23]⟩, ⟨.leaf 0 .yes, [24]⟩, ⟨.leaf 1 .yes, [25]⟩, ⟨.fin 6 65535 5 65535 65535 true .yes, []⟩, ⟨.leaf 0 .yes, [27]⟩, ⟨.leaf 0 .yes,
  [28]⟩, ⟨.leaf 2 .yes, [29, 32, 35, 38, 41, 44, 65]⟩, ⟨.leaf 0 .hard, [30]⟩, ⟨.leaf 0 .yes, [31]⟩, ⟨.leaf 3 .yes, [29, 32, 35, 38, 41, 44, 65]⟩,
  ⟨.leaf 0 .hard, [33]⟩, ⟨.leaf 4 .yes, [34]⟩, ⟨.leaf 5 .yes, [29, 32, 35, 38, 41, 44, 65]⟩, ⟨.leaf 6 .hard, [36]⟩, ⟨.leaf 5 .yes, [37]⟩, ⟨.leaf 5
  .yes, [29, 32, 35, 38, 41, 44, 65]⟩, ⟨.leaf 7 .hard, [39]⟩, ⟨.leaf 8 .yes, [40]⟩, ⟨.leaf 5 .yes, [29, 32, 35, 38, 41, 44, 65]⟩, ⟨.leaf 7 .hard,
  [42]⟩, ⟨.leaf 9 .yes, [43]⟩, ⟨.leaf 5 .yes, [29, 32, 35, 38, 41, 44, 65]⟩, ⟨.leaf 0 .hard, [45]⟩, ⟨.leaf 0 .yes, [46]⟩, ⟨.leaf 10 .yes, [47, 50]⟩,
  ⟨.leaf 0 .yes, [48]⟩, ⟨.leaf 0 .yes, [49]⟩, ⟨.leaf 11 .yes, [29, 32, 35, 38, 41, 44, 65]⟩, ⟨.leaf 0 .yes, [51]⟩, ⟨.leaf 0 .yes, [52]⟩, ⟨.leaf 12
  .yes, [53]⟩, ⟨.leaf 0 .yes, [54]⟩, ⟨.leaf 0 .yes, [55]⟩, ⟨.leaf 13 .yes, [56]⟩, ⟨.leaf 0 .yes, [57]⟩, ⟨.leaf 0 .yes, [58]⟩, ⟨.leaf 13 .yes, [59]⟩,
  ⟨.leaf 0 .yes, [60]⟩, ⟨.leaf 0 .yes, [61]⟩, ⟨.leaf 13 .yes, [62]⟩, ⟨.leaf 0 .yes, [63]⟩, ⟨.leaf 0 .yes, [64]⟩, ⟨.leaf 13 .yes, [29, 32, 35, 38, 41,
  44, 65]⟩, ⟨.leaf 0 .yes, [66]⟩, ⟨.leaf 0 .yes, [67]⟩, ⟨.leaf 2 .yes, [68]⟩, ⟨.fin 5 65535 6 4 65535 false .yes, []⟩, ⟨.leaf 0 .yes, [70]⟩, ⟨.leaf 0
  .yes, [71]⟩, ⟨.leaf 14 .yes, [72, 75]⟩, ⟨.leaf 0 .hard, [73]⟩, ⟨.leaf 0 .yes, [74]⟩, ⟨.leaf 14 .yes, [72, 75]⟩, ⟨.fin 65534 65535 7 2 65535 false
  .yes, []⟩, ⟨.leaf 0 .yes, [77]⟩, ⟨.leaf 0 .yes, [78]⟩, ⟨.leaf 1 .yes, [79, 82, 85, 88, 91, 94, 115]⟩, ⟨.leaf 0 .hard, [80]⟩, ⟨.leaf 0 .yes, [81]⟩,
  ⟨.leaf 2 .yes, [79, 82, 85, 88, 91, 94, 115]⟩, ⟨.leaf 0 .hard, [83]⟩, ⟨.leaf 3 .yes, [84]⟩, ⟨.leaf 4 .yes, [79, 82, 85, 88, 91, 94, 115]⟩, ⟨.leaf 5
  .hard, [86]⟩, ⟨.leaf 4 .yes, [87]⟩, ⟨.leaf 4 .yes, [79, 82, 85, 88, 91, 94, 115]⟩, ⟨.leaf 6 .hard, [89]⟩, ⟨.leaf 7 .yes, [90]⟩, ⟨.leaf 4 .yes, [79,
  82, 85, 88, 91, 94, 115]⟩, ⟨.leaf 6 .hard, [92]⟩, ⟨.leaf 8 .yes, [93]⟩, ⟨.leaf 4 .yes, [79, 82, 85, 88, 91, 94, 115]⟩, ⟨.leaf 0 .hard, [95]⟩, ⟨.leaf
  0 .yes, [96]⟩, ⟨.leaf 9 .yes, [97, 100]⟩, ⟨.leaf 0 .yes, [98]⟩, ⟨.leaf 0 .yes, [99]⟩, ⟨.leaf 10 .yes, [79, 82, 85, 88, 91, 94, 115]⟩, ⟨.leaf 0 .yes,
  [101]⟩, ⟨.leaf 0 .yes, [102]⟩, ⟨.leaf 11 .yes, [103]⟩, ⟨.leaf 0 .yes, [104]⟩, ⟨.leaf 0 .yes, [105]⟩, ⟨.leaf 12 .yes, [106]⟩, ⟨.leaf 0 .yes, [107]⟩,
  ⟨.leaf 0 .yes, [108]⟩, ⟨.leaf 12 .yes, [109]⟩, ⟨.leaf 0 .yes, [110]⟩, ⟨.leaf 0 .yes, [111]⟩, ⟨.leaf 12 .yes, [112]⟩, ⟨.leaf 0 .yes, [113]⟩, ⟨.leaf 0
  .yes, [114]⟩, ⟨.leaf 12 .yes, [79, 82, 85, 88, 91, 94, 115]⟩, ⟨.leaf 0 .yes, [116]⟩, ⟨.leaf 0 .yes, [117]⟩, ⟨.leaf 1 .yes, [118]⟩, ⟨.fin 5 65535 8 4
  65535 false .yes, []⟩, ⟨.leaf 0 .yes, [120]⟩, ⟨.leaf 0 .yes, [121]⟩, ⟨.leaf 13 .yes, [122, 125]⟩, ⟨.leaf 0 .hard, [123]⟩, ⟨.leaf 0 .yes, [124]⟩,
  ⟨.leaf 13 .yes, [122, 125]⟩, ⟨.fin 65534 65535 9 3 65535 false .yes, []⟩, ⟨.leaf 0 .yes, [127]⟩, ⟨.leaf 0 .yes, [128]⟩, ⟨.leaf 1 .yes, [129]⟩, ⟨.fin
  65534 65535 10 5 65535 false .yes, []⟩, ⟨.leaf 0 .yes, [131]⟩, ⟨.leaf 0 .yes, [132]⟩, ⟨.leaf 2 .yes, [133, 136]⟩, ⟨.leaf 0 .hard, [134]⟩, ⟨.leaf 0
  .yes, [135]⟩, ⟨.leaf 2 .yes, [133, 136]⟩, ⟨.fin 65534 65535 11 4 65535 false .yes, []⟩, ⟨.leaf 0 .yes, [138]⟩, ⟨.leaf 0 .yes, [139]⟩, ⟨.leaf 1 .yes,
  [140, 143, 146, 149, 152, 155, 176]⟩, ⟨.leaf 0 .hard, [141]⟩, ⟨.leaf 0 .yes, [142]⟩, ⟨.leaf 2 .yes, [140, 143, 146, 149, 152, 155, 176]⟩, ⟨.leaf 0
  .hard, [144]⟩, ⟨.leaf 3 .yes, [145]⟩, ⟨.leaf 4 .yes, [140, 143, 146, 149, 152, 155, 176]⟩, ⟨.leaf 5 .hard, [147]⟩, ⟨.leaf 4 .yes, [148]⟩, ⟨.leaf 4
  .yes, [140, 143, 146, 149, 152, 155, 176]⟩, ⟨.leaf 6 .hard, [150]⟩, ⟨.leaf 7 .yes, [151]⟩, ⟨.leaf 4 .yes, [140, 143, 146, 149, 152, 155, 176]⟩,
  ⟨.leaf 6 .hard, [153]⟩, ⟨.leaf 8 .yes, [154]⟩, ⟨.leaf 4 .yes, [140, 143, 146, 149, 152, 155, 176]⟩, ⟨.leaf 0 .hard, [156]⟩, ⟨.leaf 0 .yes, [157]⟩,
  ⟨.leaf 9 .yes, [158, 161]⟩, ⟨.leaf 0 .yes, [159]⟩, ⟨.leaf 0 .yes, [160]⟩, ⟨.leaf 10 .yes, [140, 143, 146, 149, 152, 155, 176]⟩, ⟨.leaf 0 .yes,
  [162]⟩, ⟨.leaf 0 .yes, [163]⟩, ⟨.leaf 11 .yes, [164]⟩, ⟨.leaf 0 .yes, [165]⟩, ⟨.leaf 0 .yes, [166]⟩, ⟨.leaf 12 .yes, [167]⟩, ⟨.leaf 0 .yes, [168]⟩,
  ⟨.leaf 0 .yes, [169]⟩, ⟨.leaf 12 .yes, [170]⟩, ⟨.leaf 0 .yes, [171]⟩, ⟨.leaf 0 .yes, [172]⟩, ⟨.leaf 12 .yes, [173]⟩, ⟨.leaf 0 .yes, [174]⟩, ⟨.leaf 0
  .yes, [175]⟩, ⟨.leaf 12 .yes, [140, 143, 146, 149, 152, 155, 176]⟩, ⟨.leaf 0 .yes, [177]⟩, ⟨.leaf 0 .yes, [178]⟩, ⟨.leaf 1 .yes, [179]⟩, ⟨.fin 1
  65535 12 6 65535 false .yes, []⟩, ⟨.leaf 0 .hard, [181]⟩, ⟨.leaf 0 .yes, [182]⟩, ⟨.leaf 13 .yes, [184, 187]⟩, ⟨.leaf 65535 .hard, []⟩, ⟨.leaf 0
  .yes, [185]⟩, ⟨.leaf 0 .yes, [186]⟩, ⟨.leaf 14 .yes, [193, 203, 217]⟩, ⟨.leaf 0 .yes, [188]⟩, ⟨.leaf 0 .yes, [189]⟩, ⟨.leaf 15 .yes, [190, 193, 203,
  217]⟩, ⟨.leaf 0 .hard, [191]⟩, ⟨.leaf 0 .yes, [192]⟩, ⟨.leaf 16 .yes, [190, 193, 203, 217]⟩, ⟨.leaf 0 .hard, [194]⟩, ⟨.leaf 0 .yes, [195]⟩, ⟨.leaf
  17 .yes, [196]⟩, ⟨.leaf 0 .yes, [197]⟩, ⟨.leaf 0 .yes, [198]⟩, ⟨.leaf 16 .yes, [199, 203, 217]⟩, ⟨.leaf 0 .hard, [200]⟩, ⟨.leaf 0 .yes, [201]⟩,
  ⟨.leaf 16 .yes, [199, 203, 217]⟩, ⟨.leaf 65535 .hard, []⟩, ⟨.leaf 0 .hard, [204]⟩, ⟨.leaf 0 .yes, [205]⟩, ⟨.leaf 18 .yes, [206, 210]⟩, ⟨.leaf 0
  .hard, [207]⟩, ⟨.leaf 0 .yes, [208]⟩, ⟨.leaf 19 .yes, [210]⟩, ⟨.leaf 65535 .hard, []⟩, ⟨.leaf 0 .yes, [211]⟩, ⟨.leaf 0 .yes, [212]⟩, ⟨.leaf 16 .yes,
  [213, 217]⟩, ⟨.leaf 0 .hard, [214]⟩, ⟨.leaf 0 .yes, [215]⟩, ⟨.leaf 16 .yes, [213, 217]⟩, ⟨.leaf 65535 .hard, []⟩, ⟨.fin 2 65535 13 6 65535 false
  .yes, []⟩]

def setsm5 : CharsetMap := [([(0, 0)], 0), ([(0, 254)], 7), ([(0, 255)], 4), ([(1, 254)], 5), ([(1, 255)], 3), ([(16, 16)], 6), ([(32, 33), (35, 91),
  (93, 255)], 2), ([(34, 34)], 1), ([(34, 34), (47, 47), (92, 92), (98, 98), (102, 102), (110, 110), (114, 114), (116, 116)], 10), ([(43, 43), (45,
  45)], 19), ([(45, 45)], 13), ([(46, 46)], 17), ([(48, 48)], 14), ([(48, 57)], 16), ([(48, 57), (65, 70), (97, 102)], 12), ([(49, 57)], 15), ([(69,
  69), (101, 101)], 18), ([(92, 92)], 9), ([(117, 117)], 11), ([(255, 255)], 8)]

def rootm5 : Tree := (.sel (.seq (.seq (.seq (.seq (.seq (.leaf 137 false) (.leaf 138 false)) (.leaf 139 false)) (.iter (.sel (.sel (.sel (.sel (.sel
  (.seq (.seq (.leaf 140 false) (.leaf 141 false)) (.leaf 142 false)) (.seq (.seq (.leaf 143 false) (.leaf 144 false)) (.leaf 145 false))) (.seq (.seq
  (.leaf 146 false) (.leaf 147 false)) (.leaf 148 false))) (.seq (.seq (.leaf 149 false) (.leaf 150 false)) (.leaf 151 false))) (.seq (.seq (.leaf 152
  false) (.leaf 153 false)) (.leaf 154 false))) (.seq (.seq (.seq (.leaf 155 false) (.leaf 156 false)) (.leaf 157 false)) (.sel (.seq (.seq (.leaf 158
  false) (.leaf 159 false)) (.leaf 160 false)) (.seq (.seq (.seq (.leaf 161 false) (.leaf 162 false)) (.leaf 163 false)) (.seq (.seq (.seq (.seq (.seq
  (.leaf 164 false) (.leaf 165 false)) (.leaf 166 false)) (.seq (.seq (.leaf 167 false) (.leaf 168 false)) (.leaf 169 false))) (.seq (.seq (.leaf 170
  false) (.leaf 171 false)) (.leaf 172 false))) (.seq (.seq (.leaf 173 false) (.leaf 174 false)) (.leaf 175 false))))))) .hard)) (.seq (.seq (.leaf
  176 false) (.leaf 177 false)) (.leaf 178 false))) (.fin 179)) (.seq (.seq (.seq (.seq (.sel (.seq (.seq (.leaf 180 false) (.leaf 181 false)) (.leaf
  182 false)) (.leaf 183 true)) (.sel (.seq (.seq (.leaf 184 false) (.leaf 185 false)) (.leaf 186 false)) (.seq (.seq (.seq (.leaf 187 false) (.leaf
  188 false)) (.leaf 189 false)) (.iter (.seq (.seq (.leaf 190 false) (.leaf 191 false)) (.leaf 192 false)) .hard)))) (.sel (.seq (.seq (.seq (.leaf
  193 false) (.leaf 194 false)) (.leaf 195 false)) (.seq (.seq (.seq (.leaf 196 false) (.leaf 197 false)) (.leaf 198 false)) (.iter (.seq (.seq (.leaf
  199 false) (.leaf 200 false)) (.leaf 201 false)) .hard))) (.leaf 202 true))) (.sel (.seq (.seq (.seq (.seq (.leaf 203 false) (.leaf 204 false))
  (.leaf 205 false)) (.sel (.seq (.seq (.leaf 206 false) (.leaf 207 false)) (.leaf 208 false)) (.leaf 209 true))) (.seq (.seq (.seq (.leaf 210 false)
  (.leaf 211 false)) (.leaf 212 false)) (.iter (.seq (.seq (.leaf 213 false) (.leaf 214 false)) (.leaf 215 false)) .hard))) (.leaf 216 true))) (.fin
  217)))

def heap5 : Heap := [⟨.leaf 0 .yes, [1]⟩, ⟨.leaf 0 .yes, [2]⟩, ⟨.leaf 1 .yes, [3]⟩, ⟨.fin 4 65535 1 2 1 false .yes, []⟩, ⟨.leaf 0 .yes, [5]⟩, ⟨.leaf 0
  .yes, [6]⟩, ⟨.leaf 2 .yes, [7]⟩, ⟨.fin 7 65535 2 7 1 false .yes, []⟩, ⟨.leaf 0 .yes, [9]⟩, ⟨.leaf 0 .yes, [10]⟩, ⟨.leaf 3 .yes, [11, 14]⟩, ⟨.leaf 0
  .hard, [12]⟩, ⟨.leaf 0 .yes, [13]⟩, ⟨.leaf 3 .yes, [11, 14]⟩, ⟨.fin 65534 65535 3 0 65535 false .yes, []⟩, ⟨.leaf 0 .yes, [16]⟩, ⟨.leaf 0 .yes,
  [17]⟩, ⟨.leaf 1 .yes, [18, 21]⟩, ⟨.leaf 0 .hard, [19]⟩, ⟨.leaf 0 .yes, [20]⟩, ⟨.leaf 1 .yes, [18, 21]⟩, ⟨.fin 65534 65535 4 1 65535 false .yes, []⟩,
  ⟨.leaf 0 .yes, [23]⟩, ⟨.leaf 0 .yes, [24]⟩, ⟨.leaf 1 .yes, [25]⟩, ⟨.fin 6 65535 5 65535 65535 true .yes, []⟩, ⟨.leaf 0 .yes, [27]⟩, ⟨.leaf 0 .yes,
  [28]⟩, ⟨.leaf 2 .yes, [29, 32, 35, 38, 41, 44, 65]⟩, ⟨.leaf 0 .hard, [30]⟩, ⟨.leaf 0 .yes, [31]⟩, ⟨.leaf 3 .yes, [29, 32, 35, 38, 41, 44, 65]⟩,
  ⟨.leaf 0 .hard, [33]⟩, ⟨.leaf 4 .yes, [34]⟩, ⟨.leaf 5 .yes, [29, 32, 35, 38, 41, 44, 65]⟩, ⟨.leaf 6 .hard, [36]⟩, ⟨.leaf 5 .yes, [37]⟩, ⟨.leaf 5
  .yes, [29, 32, 35, 38, 41, 44, 65]⟩, ⟨.leaf 7 .hard, [39]⟩, ⟨.leaf 8 .yes, [40]⟩, ⟨.leaf 5 .yes, [29, 32, 35, 38, 41, 44, 65]⟩, ⟨.leaf 7 .hard,
  [42]⟩, ⟨.leaf 9 .yes, [43]⟩, ⟨.leaf 5 .yes, [29, 32, 35, 38, 41, 44, 65]⟩, ⟨.leaf 0 .hard, [45]⟩, ⟨.leaf 0 .yes, [46]⟩, ⟨.leaf 10 .yes, [47, 50]⟩,
  ⟨.leaf 0 .yes, [48]⟩, ⟨.leaf 0 .yes, [49]⟩, ⟨.leaf 11 .yes, [29, 32, 35, 38, 41, 44, 65]⟩, ⟨.leaf 0 .yes, [51]⟩, ⟨.leaf 0 .yes, [52]⟩, ⟨.leaf 12
  .yes, [53]⟩, ⟨.leaf 0 .yes, [54]⟩, ⟨.leaf 0 .yes, [55]⟩, ⟨.leaf 13 .yes, [56]⟩, ⟨.leaf 0 .yes, [57]⟩, ⟨.leaf 0 .yes, [58]⟩, ⟨.leaf 13 .yes, [59]⟩,
  ⟨.leaf 0 .yes, [60]⟩, ⟨.leaf 0 .yes, [61]⟩, ⟨.leaf 13 .yes, [62]⟩, ⟨.leaf 0 .yes, [63]⟩, ⟨.leaf 0 .yes, [64]⟩, ⟨.leaf 13 .yes, [29, 32, 35, 38, 41,
  44, 65]⟩, ⟨.leaf 0 .yes, [66]⟩, ⟨.leaf 0 .yes, [67]⟩, ⟨.leaf 2 .yes, [68]⟩, ⟨.fin 5 65535 6 4 65535 false .yes, []⟩, ⟨.leaf 0 .yes, [70]⟩, ⟨.leaf 0
  .yes, [71]⟩, ⟨.leaf 14 .yes, [72, 75]⟩, ⟨.leaf 0 .hard, [73]⟩, ⟨.leaf 0 .yes, [74]⟩, ⟨.leaf 14 .yes, [72, 75]⟩, ⟨.fin 65534 65535 7 2 65535 false
  .yes, []⟩, ⟨.leaf 0 .yes, [77]⟩, ⟨.leaf 0 .yes, [78]⟩, ⟨.leaf 1 .yes, [79, 82, 85, 88, 91, 94, 115]⟩, ⟨.leaf 0 .hard, [80]⟩, ⟨.leaf 0 .yes, [81]⟩,
  ⟨.leaf 2 .yes, [79, 82, 85, 88, 91, 94, 115]⟩, ⟨.leaf 0 .hard, [83]⟩, ⟨.leaf 3 .yes, [84]⟩, ⟨.leaf 4 .yes, [79, 82, 85, 88, 91, 94, 115]⟩, ⟨.leaf 5
  .hard, [86]⟩, ⟨.leaf 4 .yes, [87]⟩, ⟨.leaf 4 .yes, [79, 82, 85, 88, 91, 94, 115]⟩, ⟨.leaf 6 .hard, [89]⟩, ⟨.leaf 7 .yes, [90]⟩, ⟨.leaf 4 .yes, [79,
  82, 85, 88, 91, 94, 115]⟩, ⟨.leaf 6 .hard, [92]⟩, ⟨.leaf 8 .yes, [93]⟩, ⟨.leaf 4 .yes, [79, 82, 85, 88, 91, 94, 115]⟩, ⟨.leaf 0 .hard, [95]⟩, ⟨.leaf
  0 .yes, [96]⟩, ⟨.leaf 9 .yes, [97, 100]⟩, ⟨.leaf 0 .yes, [98]⟩, ⟨.leaf 0 .yes, [99]⟩, ⟨.leaf 10 .yes, [79, 82, 85, 88, 91, 94, 115]⟩, ⟨.leaf 0 .yes,
  [101]⟩, ⟨.leaf 0 .yes, [102]⟩, ⟨.leaf 11 .yes, [103]⟩, ⟨.leaf 0 .yes, [104]⟩, ⟨.leaf 0 .yes, [105]⟩, ⟨.leaf 12 .yes, [106]⟩, ⟨.leaf 0 .yes, [107]⟩,
  ⟨.leaf 0 .yes, [108]⟩, ⟨.leaf 12 .yes, [109]⟩, ⟨.leaf 0 .yes, [110]⟩, ⟨.leaf 0 .yes, [111]⟩, ⟨.leaf 12 .yes, [112]⟩, ⟨.leaf 0 .yes, [113]⟩, ⟨.leaf 0
  .yes, [114]⟩, ⟨.leaf 12 .yes, [79, 82, 85, 88, 91, 94, 115]⟩, ⟨.leaf 0 .yes, [116]⟩, ⟨.leaf 0 .yes, [117]⟩, ⟨.leaf 1 .yes, [118]⟩, ⟨.fin 5 65535 8 4
  65535 false .yes, []⟩, ⟨.leaf 0 .yes, [120]⟩, ⟨.leaf 0 .yes, [121]⟩, ⟨.leaf 13 .yes, [122, 125]⟩, ⟨.leaf 0 .hard, [123]⟩, ⟨.leaf 0 .yes, [124]⟩,
  ⟨.leaf 13 .yes, [122, 125]⟩, ⟨.fin 65534 65535 9 3 65535 false .yes, []⟩, ⟨.leaf 0 .yes, [127]⟩, ⟨.leaf 0 .yes, [128]⟩, ⟨.leaf 1 .yes, [129]⟩, ⟨.fin
  65534 65535 10 5 65535 false .yes, []⟩, ⟨.leaf 0 .yes, [131]⟩, ⟨.leaf 0 .yes, [132]⟩, ⟨.leaf 2 .yes, [133, 136]⟩, ⟨.leaf 0 .hard, [134]⟩, ⟨.leaf 0
  .yes, [135]⟩, ⟨.leaf 2 .yes, [133, 136]⟩, ⟨.fin 65534 65535 11 4 65535 false .yes, []⟩, ⟨.leaf 0 .yes, [138]⟩, ⟨.leaf 0 .yes, [139]⟩, ⟨.leaf 1 .yes,
  [140, 143, 146, 149, 152, 155, 176]⟩, ⟨.leaf 0 .hard, [141]⟩, ⟨.leaf 0 .yes, [142]⟩, ⟨.leaf 2 .yes, [140, 143, 146, 149, 152, 155, 176]⟩, ⟨.leaf 0
  .hard, [144]⟩, ⟨.leaf 3 .yes, [145]⟩, ⟨.leaf 4 .yes, [140, 143, 146, 149, 152, 155, 176]⟩, ⟨.leaf 5 .hard, [147]⟩, ⟨.leaf 4 .yes, [148]⟩, ⟨.leaf 4
  .yes, [140, 143, 146, 149, 152, 155, 176]⟩, ⟨.leaf 6 .hard, [150]⟩, ⟨.leaf 7 .yes, [151]⟩, ⟨.leaf 4 .yes, [140, 143, 146, 149, 152, 155, 176]⟩,
  ⟨.leaf 6 .hard, [153]⟩, ⟨.leaf 8 .yes, [154]⟩, ⟨.leaf 4 .yes, [140, 143, 146, 149, 152, 155, 176]⟩, ⟨.leaf 0 .hard, [156]⟩, ⟨.leaf 0 .yes, [157]⟩,
  ⟨.leaf 9 .yes, [158, 161]⟩, ⟨.leaf 0 .yes, [159]⟩, ⟨.leaf 0 .yes, [160]⟩, ⟨.leaf 10 .yes, [140, 143, 146, 149, 152, 155, 176]⟩, ⟨.leaf 0 .yes,
  [162]⟩, ⟨.leaf 0 .yes, [163]⟩, ⟨.leaf 11 .yes, [164]⟩, ⟨.leaf 0 .yes, [165]⟩, ⟨.leaf 0 .yes, [166]⟩, ⟨.leaf 12 .yes, [167]⟩, ⟨.leaf 0 .yes, [168]⟩,
  ⟨.leaf 0 .yes, [169]⟩, ⟨.leaf 12 .yes, [170]⟩, ⟨.leaf 0 .yes, [171]⟩, ⟨.leaf 0 .yes, [172]⟩, ⟨.leaf 12 .yes, [173]⟩, ⟨.leaf 0 .yes, [174]⟩, ⟨.leaf 0
  .yes, [175]⟩, ⟨.leaf 12 .yes, [140, 143, 146, 149, 152, 155, 176]⟩, ⟨.leaf 0 .yes, [177]⟩, ⟨.leaf 0 .yes, [178]⟩, ⟨.leaf 1 .yes, [179]⟩, ⟨.fin 1
  65535 12 6 65535 false .yes, []⟩, ⟨.leaf 0 .hard, [181]⟩, ⟨.leaf 0 .yes, [182]⟩, ⟨.leaf 13 .yes, [184, 187]⟩, ⟨.leaf 65535 .hard, []⟩, ⟨.leaf 0
  .yes, [185]⟩, ⟨.leaf 0 .yes, [186]⟩, ⟨.leaf 14 .yes, [193, 203, 217]⟩, ⟨.leaf 0 .yes, [188]⟩, ⟨.leaf 0 .yes, [189]⟩, ⟨.leaf 15 .yes, [190, 193, 203,
  217]⟩, ⟨.leaf 0 .hard, [191]⟩, ⟨.leaf 0 .yes, [192]⟩, ⟨.leaf 16 .yes, [190, 193, 203, 217]⟩, ⟨.leaf 0 .hard, [194]⟩, ⟨.leaf 0 .yes, [195]⟩, ⟨.leaf
  17 .yes, [196]⟩, ⟨.leaf 0 .yes, [197]⟩, ⟨.leaf 0 .yes, [198]⟩, ⟨.leaf 16 .yes, [199, 203, 217]⟩, ⟨.leaf 0 .hard, [200]⟩, ⟨.leaf 0 .yes, [201]⟩,
  ⟨.leaf 16 .yes, [199, 203, 217]⟩, ⟨.leaf 65535 .hard, []⟩, ⟨.leaf 0 .hard, [204]⟩, ⟨.leaf 0 .yes, [205]⟩, ⟨.leaf 18 .yes, [206, 210]⟩, ⟨.leaf 0
  .hard, [207]⟩, ⟨.leaf 0 .yes, [208]⟩, ⟨.leaf 19 .yes, [210]⟩, ⟨.leaf 65535 .hard, []⟩, ⟨.leaf 0 .yes, [211]⟩, ⟨.leaf 0 .yes, [212]⟩, ⟨.leaf 16 .yes,
  [213, 217]⟩, ⟨.leaf 0 .hard, [214]⟩, ⟨.leaf 0 .yes, [215]⟩, ⟨.leaf 16 .yes, [213, 217]⟩, ⟨.leaf 65535 .hard, []⟩, ⟨.fin 2 65535 13 6 65535 false
  .yes, []⟩, ⟨.leaf 0 .yes, [219]⟩, ⟨.leaf 0 .yes, [220]⟩, ⟨.leaf 20 .yes, [221]⟩, ⟨.leaf 0 .yes, [222]⟩, ⟨.leaf 0 .yes, [223]⟩, ⟨.leaf 21 .yes,
  [224]⟩, ⟨.leaf 0 .yes, [225]⟩, ⟨.leaf 0 .yes, [226]⟩, ⟨.leaf 11 .yes, [227]⟩, ⟨.leaf 0 .yes, [228]⟩, ⟨.leaf 0 .yes, [229]⟩, ⟨.leaf 22 .yes, [245]⟩,
  ⟨.leaf 0 .yes, [231]⟩, ⟨.leaf 0 .yes, [232]⟩, ⟨.leaf 23 .yes, [233]⟩, ⟨.leaf 0 .yes, [234]⟩, ⟨.leaf 0 .yes, [235]⟩, ⟨.leaf 24 .yes, [236]⟩, ⟨.leaf 0
  .yes, [237]⟩, ⟨.leaf 0 .yes, [238]⟩, ⟨.leaf 25 .yes, [239]⟩, ⟨.leaf 0 .yes, [240]⟩, ⟨.leaf 0 .yes, [241]⟩, ⟨.leaf 26 .yes, [242]⟩, ⟨.leaf 0 .yes,
  [243]⟩, ⟨.leaf 0 .yes, [244]⟩, ⟨.leaf 22 .yes, [245]⟩, ⟨.fin 3 65535 14 6 65535 false .yes, []⟩, ⟨.leaf 0 .yes, [247]⟩, ⟨.leaf 0 .yes, [248]⟩,
  ⟨.leaf 27 .yes, [249]⟩, ⟨.leaf 0 .yes, [250]⟩, ⟨.leaf 0 .yes, [251]⟩, ⟨.leaf 11 .yes, [252]⟩, ⟨.leaf 0 .yes, [253]⟩, ⟨.leaf 0 .yes, [254]⟩, ⟨.leaf
  25 .yes, [255]⟩, ⟨.leaf 0 .yes, [256]⟩, ⟨.leaf 0 .yes, [257]⟩, ⟨.leaf 25 .yes, [258]⟩, ⟨.fin 9 65535 15 6 65535 false .yes, []⟩, ⟨.leaf 0 .yes,
  [260]⟩, ⟨.leaf 0 .yes, [261]⟩, ⟨.leaf 28 .yes, [262]⟩, ⟨.fin 4 65535 16 2 6 false .yes, []⟩, ⟨.leaf 0 .yes, [264]⟩, ⟨.leaf 0 .yes, [265]⟩, ⟨.leaf 29
  .yes, [266]⟩, ⟨.fin 7 65535 17 7 6 false .yes, []⟩, ⟨.leaf 0 .yes, [268]⟩, ⟨.leaf 0 .yes, [269]⟩, ⟨.leaf 30 .yes, [270, 273]⟩, ⟨.leaf 0 .hard,
  [271]⟩, ⟨.leaf 0 .yes, [272]⟩, ⟨.leaf 30 .yes, [270, 273]⟩, ⟨.fin 65534 65535 18 5 65535 false .yes, []⟩]

def sets5 : CharsetMap := [([(0, 0)], 0), ([(0, 254)], 7), ([(0, 255)], 4), ([(1, 254)], 5), ([(1, 255)], 3), ([(9, 10), (13, 13), (32, 32)], 30),
  ([(16, 16)], 6), ([(32, 33), (35, 91), (93, 255)], 2), ([(34, 34)], 1), ([(34, 34), (47, 47), (92, 92), (98, 98), (102, 102), (110, 110), (114,
  114), (116, 116)], 10), ([(43, 43), (45, 45)], 19), ([(45, 45)], 13), ([(46, 46)], 17), ([(48, 48)], 14), ([(48, 57)], 16), ([(48, 57), (65, 70),
  (97, 102)], 12), ([(49, 57)], 15), ([(69, 69), (101, 101)], 18), ([(91, 91)], 29), ([(92, 92)], 9), ([(97, 97)], 24), ([(101, 101)], 22), ([(102,
  102)], 23), ([(108, 108)], 25), ([(110, 110)], 27), ([(114, 114)], 21), ([(115, 115)], 26), ([(116, 116)], 20), ([(117, 117)], 11), ([(123, 123)],
  28), ([(255, 255)], 8)]

def root5 : Tree := (.sel (.sel (.sel (.sel (.sel (.sel (.seq (.seq (.seq (.seq (.seq (.leaf 137 false) (.leaf 138 false)) (.leaf 139 false)) (.iter
  (.sel (.sel (.sel (.sel (.sel (.seq (.seq (.leaf 140 false) (.leaf 141 false)) (.leaf 142 false)) (.seq (.seq (.leaf 143 false) (.leaf 144 false))
  (.leaf 145 false))) (.seq (.seq (.leaf 146 false) (.leaf 147 false)) (.leaf 148 false))) (.seq (.seq (.leaf 149 false) (.leaf 150 false)) (.leaf 151
  false))) (.seq (.seq (.leaf 152 false) (.leaf 153 false)) (.leaf 154 false))) (.seq (.seq (.seq (.leaf 155 false) (.leaf 156 false)) (.leaf 157
  false)) (.sel (.seq (.seq (.leaf 158 false) (.leaf 159 false)) (.leaf 160 false)) (.seq (.seq (.seq (.leaf 161 false) (.leaf 162 false)) (.leaf 163
  false)) (.seq (.seq (.seq (.seq (.seq (.leaf 164 false) (.leaf 165 false)) (.leaf 166 false)) (.seq (.seq (.leaf 167 false) (.leaf 168 false))
  (.leaf 169 false))) (.seq (.seq (.leaf 170 false) (.leaf 171 false)) (.leaf 172 false))) (.seq (.seq (.leaf 173 false) (.leaf 174 false)) (.leaf 175
  false))))))) .hard)) (.seq (.seq (.leaf 176 false) (.leaf 177 false)) (.leaf 178 false))) (.fin 179)) (.seq (.seq (.seq (.seq (.sel (.seq (.seq
  (.leaf 180 false) (.leaf 181 false)) (.leaf 182 false)) (.leaf 183 true)) (.sel (.seq (.seq (.leaf 184 false) (.leaf 185 false)) (.leaf 186 false))
  (.seq (.seq (.seq (.leaf 187 false) (.leaf 188 false)) (.leaf 189 false)) (.iter (.seq (.seq (.leaf 190 false) (.leaf 191 false)) (.leaf 192 false))
  .hard)))) (.sel (.seq (.seq (.seq (.leaf 193 false) (.leaf 194 false)) (.leaf 195 false)) (.seq (.seq (.seq (.leaf 196 false) (.leaf 197 false))
  (.leaf 198 false)) (.iter (.seq (.seq (.leaf 199 false) (.leaf 200 false)) (.leaf 201 false)) .hard))) (.leaf 202 true))) (.sel (.seq (.seq (.seq
  (.seq (.leaf 203 false) (.leaf 204 false)) (.leaf 205 false)) (.sel (.seq (.seq (.leaf 206 false) (.leaf 207 false)) (.leaf 208 false)) (.leaf 209
  true))) (.seq (.seq (.seq (.leaf 210 false) (.leaf 211 false)) (.leaf 212 false)) (.iter (.seq (.seq (.leaf 213 false) (.leaf 214 false)) (.leaf 215
  false)) .hard))) (.leaf 216 true))) (.fin 217))) (.seq (.sel (.seq (.seq (.seq (.seq (.seq (.leaf 218 false) (.leaf 219 false)) (.leaf 220 false))
  (.seq (.seq (.leaf 221 false) (.leaf 222 false)) (.leaf 223 false))) (.seq (.seq (.leaf 224 false) (.leaf 225 false)) (.leaf 226 false))) (.seq
  (.seq (.leaf 227 false) (.leaf 228 false)) (.leaf 229 false))) (.seq (.seq (.seq (.seq (.seq (.seq (.leaf 230 false) (.leaf 231 false)) (.leaf 232
  false)) (.seq (.seq (.leaf 233 false) (.leaf 234 false)) (.leaf 235 false))) (.seq (.seq (.leaf 236 false) (.leaf 237 false)) (.leaf 238 false)))
  (.seq (.seq (.leaf 239 false) (.leaf 240 false)) (.leaf 241 false))) (.seq (.seq (.leaf 242 false) (.leaf 243 false)) (.leaf 244 false)))) (.fin
  245))) (.seq (.seq (.seq (.seq (.seq (.seq (.leaf 246 false) (.leaf 247 false)) (.leaf 248 false)) (.seq (.seq (.leaf 249 false) (.leaf 250 false))
  (.leaf 251 false))) (.seq (.seq (.leaf 252 false) (.leaf 253 false)) (.leaf 254 false))) (.seq (.seq (.leaf 255 false) (.leaf 256 false)) (.leaf 257
  false))) (.fin 258))) (.seq (.seq (.seq (.leaf 259 false) (.leaf 260 false)) (.leaf 261 false)) (.fin 262))) (.seq (.seq (.seq (.leaf 263 false)
  (.leaf 264 false)) (.leaf 265 false)) (.fin 266))) (.seq (.seq (.seq (.seq (.leaf 267 false) (.leaf 268 false)) (.leaf 269 false)) (.iter (.seq
  (.seq (.leaf 270 false) (.leaf 271 false)) (.leaf 272 false)) .hard)) (.fin 273)))

theorem tree5a : (buildTree Ex.tr24 false ((stored.states.getD 5 []).take 2) heap4 11).toOption =
    some (⟨heapm5, setsm5, 65535, 65535, []⟩, rootm5, 13) := by decide +kernel

theorem tree5b : (buildTreeRest Ex.tr24 false ((stored.states.getD 5 []).drop 2) ⟨heapm5, setsm5, 65535, 65535, []⟩ rootm5 13).toOption =
    some (⟨heap5, sets5, 65535, 65535, []⟩, root5, 18) := by decide +kernel

theorem dfa5 : (Slim.dfa Ex.tr24 false id heap5 sets5 65535 65535 root5 [1, 2, 3, 4, 5, 6, 7, 8, 9, 10, 11]).toOption.map
    (fun s => (decide (s.seen.length < 60000), s.used)) = some (true, [1, 2, 3, 4, 5, 6, 7, 8, 9, 10, 11, 12, 13, 14, 15, 16, 17, 18]) := by decide +kernel

theorem part5 : Slim.loop Ex.tr24 id false false [stored.states.getD 5 []] [36] (heap4, [1, 2, 3, 4, 5, 6, 7, 8, 9, 10, 11], 11) =
    .ok (heap5, [1, 2, 3, 4, 5, 6, 7, 8, 9, 10, 11, 12, 13, 14, 15, 16, 17, 18], 18) :=
  loop_one (n := 1) (by decide) (by decide +kernel) tree5a tree5b (by decide +kernel) dfa5

def heap6 : Heap := [⟨.leaf 0 .yes, [1]⟩, ⟨.leaf 0 .yes, [2]⟩, ⟨.leaf 1 .yes, [3]⟩, ⟨.fin 4 65535 1 2 1 false .yes, []⟩, ⟨.leaf 0 .yes, [5]⟩, ⟨.leaf 0
  .yes, [6]⟩, ⟨.leaf 2 .yes, [7]⟩, ⟨.fin 7 65535 2 7 1 false .yes, []⟩, ⟨.leaf 0 .yes, [9]⟩, ⟨.leaf 0 .yes, [10]⟩, ⟨.leaf 3 .yes, [11, 14]⟩, ⟨.leaf 0
  .hard, [12]⟩, ⟨.leaf 0 .yes, [13]⟩, ⟨.leaf 3 .yes, [11, 14]⟩, ⟨.fin 65534 65535 3 0 65535 false .yes, []⟩, ⟨.leaf 0 .yes, [16]⟩, ⟨.leaf 0 .yes,
  [17]⟩, ⟨.leaf 1 .yes, [18, 21]⟩, ⟨.leaf 0 .hard, [19]⟩, ⟨.leaf 0 .yes, [20]⟩, ⟨.leaf 1 .yes, [18, 21]⟩, ⟨.fin 65534 65535 4 1 65535 false .yes, []⟩,
  ⟨.leaf 0 .yes, [23]⟩, ⟨.leaf 0 .yes, [24]⟩, ⟨.leaf 1 .yes, [25]⟩, ⟨.fin 6 65535 5 65535 65535 true .yes, []⟩, ⟨.leaf 0 .yes, [27]⟩, ⟨.leaf 0 .yes,
  [28]⟩, ⟨.leaf 2 .yes, [29, 32, 35, 38, 41, 44, 65]⟩, ⟨.leaf 0 .hard, [30]⟩, ⟨.leaf 0 .yes, [31]⟩, ⟨.leaf 3 .yes, [29, 32, 35, 38, 41, 44, 65]⟩,
  ⟨.leaf 0 .hard, [33]⟩, ⟨.leaf 4 .yes, [34]⟩, ⟨.leaf 5 .yes, [29, 32, 35, 38, 41, 44, 65]⟩, ⟨.leaf 6 .hard, [36]⟩, ⟨.leaf 5 .yes, [37]⟩, ⟨.leaf 5
  .yes, [29, 32, 35, 38, 41, 44, 65]⟩, ⟨.leaf 7 .hard, [39]⟩, ⟨.leaf 8 .yes, [40]⟩, ⟨.leaf 5 .yes, [29, 32, 35, 38, 41, 44, 65]⟩, ⟨.leaf 7 .hard,
  [42]⟩, ⟨.leaf 9 .yes, [43]⟩, ⟨.leaf 5 .yes, [29, 32, 35, 38, 41, 44, 65]⟩, ⟨.leaf 0 .hard, [45]⟩, ⟨.leaf 0 .yes, [46]⟩, ⟨.leaf 10 .yes, [47, 50]⟩,
  ⟨.leaf 0 .yes, [48]⟩, ⟨.leaf 0 .yes, [49]⟩, ⟨.leaf 11 .yes, [29, 32, 35, 38, 41, 44, 65]⟩, ⟨.leaf 0 .yes, [51]⟩, ⟨.leaf 0 .yes, [52]⟩, ⟨.leaf 12
  .yes, [53]⟩, ⟨.leaf 0 .yes, [54]⟩, ⟨.leaf 0 .yes, [55]⟩, ⟨.leaf 13 .yes, [56]⟩, ⟨.leaf 0 .yes, [57]⟩, ⟨.leaf 0 .yes, [58]⟩, ⟨.leaf 13 .yes, [59]⟩,
  ⟨.leaf 0 .yes, [60]⟩, ⟨.leaf 0 .yes, [61]⟩, ⟨.leaf 13 .yes, [62]⟩, ⟨.leaf 0 .yes, [63]⟩, ⟨.leaf 0 .yes, [64]⟩, ⟨.leaf 13 .yes, [29, 32, 35, 38, 41,
  44, 65]⟩, ⟨.leaf 0 .yes, [66]⟩, ⟨.leaf 0 .yes, [67]⟩, ⟨.leaf 2 .yes, [68]⟩, ⟨.fin 5 65535 6 4 65535 false .yes, []⟩, ⟨.leaf 0 .yes, [70]⟩, ⟨.leaf 0
  .yes, [71]⟩, ⟨.leaf 14 .yes, [72, 75]⟩, ⟨.leaf 0 .hard, [73]⟩, ⟨.leaf 0 .yes, [74]⟩, ⟨.leaf 14 .yes, [72, 75]⟩, ⟨.fin 65534 65535 7 2 65535 false
  .yes, []⟩, ⟨.leaf 0 .yes, [77]⟩, ⟨.leaf 0 .yes, [78]⟩, ⟨.leaf 1 .yes, [79, 82, 85, 88, 91, 94, 115]⟩, ⟨.leaf 0 .hard, [80]⟩, ⟨.leaf 0 .yes, [81]⟩,
  ⟨.leaf 2 .yes, [79, 82, 85, 88, 91, 94, 115]⟩, ⟨.leaf 0 .hard, [83]⟩, ⟨.leaf 3 .yes, [84]⟩, ⟨.leaf 4 .yes, [79, 82, 85, 88, 91, 94, 115]⟩, ⟨.leaf 5
  .hard, [86]⟩, ⟨.leaf 4 .yes, [87]⟩, ⟨.leaf 4 .yes, [79, 82, 85, 88, 91, 94, 115]⟩, ⟨.leaf 6 .hard, [89]⟩, ⟨.leaf 7 .yes, [90]⟩, ⟨.leaf 4 .yes, [79,
  82, 85, 88, 91, 94, 115]⟩, ⟨.leaf 6 .hard, [92]⟩, ⟨.leaf 8 .yes, [93]⟩, ⟨.leaf 4 .yes, [79, 82, 85, 88, 91, 94, 115]⟩, ⟨.leaf 0 .hard, [95]⟩, ⟨.leaf
  0 .yes, [96]⟩, ⟨.leaf 9 .yes, [97, 100]⟩, ⟨.leaf 0 .yes, [98]⟩, ⟨.leaf 0 .yes, [99]⟩, ⟨.leaf 10 .yes, [79, 82, 85, 88, 91, 94, 115]⟩, ⟨.leaf 0 .yes,
  [101]⟩, ⟨.leaf 0 .yes, [102]⟩, ⟨.leaf 11 .yes, [103]⟩, ⟨.leaf 0 .yes, [104]⟩, ⟨.leaf 0 .yes, [105]⟩, ⟨.leaf 12 .yes, [106]⟩, ⟨.leaf 0 .yes, [107]⟩,
  ⟨.leaf 0 .yes, [108]⟩, ⟨.leaf 12 .yes, [109]⟩, ⟨.leaf 0 .yes, [110]⟩, ⟨.leaf 0 .yes, [111]⟩, ⟨.leaf 12 .yes, [112]⟩, ⟨.leaf 0 .yes, [113]⟩, ⟨.leaf 0
  .yes, [114]⟩, ⟨.leaf 12 .yes, [79, 82, 85, 88, 91, 94, 115]⟩, ⟨.leaf 0 .yes, [116]⟩, ⟨.leaf 0 .yes, [117]⟩, ⟨.leaf 1 .yes, [118]⟩, ⟨.fin 5 65535 8 4
  65535 false .yes, []⟩, ⟨.leaf 0 .yes, [120]⟩, ⟨.leaf 0 .yes, [121]⟩, ⟨.leaf 13 .yes, [122, 125]⟩, ⟨.leaf 0 .hard, [123]⟩, ⟨.leaf 0 .yes, [124]⟩,
  ⟨.leaf 13 .yes, [122, 125]⟩, ⟨.fin 65534 65535 9 3 65535 false .yes, []⟩, ⟨.leaf 0 .yes, [127]⟩, ⟨.leaf 0 .yes, [128]⟩, ⟨.leaf 1 .yes, [129]⟩, ⟨.fin
  65534 65535 10 5 65535 false .yes, []⟩, ⟨.leaf 0 .yes, [131]⟩, ⟨.leaf 0 .yes, [132]⟩, ⟨.leaf 2 .yes, [133, 136]⟩, ⟨.leaf 0 .hard, [134]⟩, ⟨.leaf 0
  .yes, [135]⟩, ⟨.leaf 2 .yes, [133, 136]⟩, ⟨.fin 65534 65535 11 4 65535 false .yes, []⟩, ⟨.leaf 0 .yes, [138]⟩, ⟨.leaf 0 .yes, [139]⟩, ⟨.leaf 1 .yes,
  [140, 143, 146, 149, 152, 155, 176]⟩, ⟨.leaf 0 .hard, [141]⟩, ⟨.leaf 0 .yes, [142]⟩, ⟨.leaf 2 .yes, [140, 143, 146, 149, 152, 155, 176]⟩, ⟨.leaf 0
  .hard, [144]⟩, ⟨.leaf 3 .yes, [145]⟩, ⟨.leaf 4 .yes, [140, 143, 146, 149, 152, 155, 176]⟩, ⟨.leaf 5 .hard, [147]⟩, ⟨.leaf 4 .yes, [148]⟩, ⟨.leaf 4
  .yes, [140, 143, 146, 149, 152, 155, 176]⟩, ⟨.leaf 6 .hard, [150]⟩, ⟨.leaf 7 .yes, [151]⟩, ⟨.leaf 4 .yes, [140, 143, 146, 149, 152, 155, 176]⟩,
  ⟨.leaf 6 .hard, [153]⟩, ⟨.leaf 8 .yes, [154]⟩, ⟨.leaf 4 .yes, [140, 143, 146, 149, 152, 155, 176]⟩, ⟨.leaf 0 .hard, [156]⟩, ⟨.leaf 0 .yes, [157]⟩,
  ⟨.leaf 9 .yes, [158, 161]⟩, ⟨.leaf 0 .yes, [159]⟩, ⟨.leaf 0 .yes, [160]⟩, ⟨.leaf 10 .yes, [140, 143, 146, 149, 152, 155, 176]⟩, ⟨.leaf 0 .yes,
  [162]⟩, ⟨.leaf 0 .yes, [163]⟩, ⟨.leaf 11 .yes, [164]⟩, ⟨.leaf 0 .yes, [165]⟩, ⟨.leaf 0 .yes, [166]⟩, ⟨.leaf 12 .yes, [167]⟩, ⟨.leaf 0 .yes, [168]⟩,
  ⟨.leaf 0 .yes, [169]⟩, ⟨.leaf 12 .yes, [170]⟩, ⟨.leaf 0 .yes, [171]⟩, ⟨.leaf 0 .yes, [172]⟩, ⟨.leaf 12 .yes, [173]⟩, ⟨.leaf 0 .yes, [174]⟩, ⟨.leaf 0
  .yes, [175]⟩, ⟨.leaf 12 .yes, [140, 143, 146, 149, 152, 155, 176]⟩, ⟨.leaf 0 .yes, [177]⟩, ⟨.leaf 0 .yes, [178]⟩, ⟨.leaf 1 .yes, [179]⟩, ⟨.fin 1
  65535 12 6 65535 false .yes, []⟩, ⟨.leaf 0 .hard, [181]⟩, ⟨.leaf 0 .yes, [182]⟩, ⟨.leaf 13 .yes, [184, 187]⟩, ⟨.leaf 65535 .hard, []⟩, ⟨.leaf 0
  .yes, [185]⟩, ⟨.leaf 0 .yes, [186]⟩, ⟨.leaf 14 .yes, [193, 203, 217]⟩, ⟨.leaf 0 .yes, [188]⟩, ⟨.leaf 0 .yes, [189]⟩, ⟨.leaf 15 .yes, [190, 193, 203,
  217]⟩, ⟨.leaf 0 .hard, [191]⟩, ⟨.leaf 0 .yes, [192]⟩, ⟨.leaf 16 .yes, [190, 193, 203, 217]⟩, ⟨.leaf 0 .hard, [194]⟩, ⟨.leaf 0 .yes, [195]⟩, ⟨.leaf
  17 .yes, [196]⟩, ⟨.leaf 0 .yes, [197]⟩, ⟨.leaf 0 .yes, [198]⟩, ⟨.leaf 16 .yes, [199, 203, 217]⟩, ⟨.leaf 0 .hard, [200]⟩, ⟨.leaf 0 .yes, [201]⟩,
  ⟨.leaf 16 .yes, [199, 203, 217]⟩, ⟨.leaf 65535 .hard, []⟩, ⟨.leaf 0 .hard, [204]⟩, ⟨.leaf 0 .yes, [205]⟩, ⟨.leaf 18 .yes, [206, 210]⟩, ⟨.leaf 0
  .hard, [207]⟩, ⟨.leaf 0 .yes, [208]⟩, ⟨.leaf 19 .yes, [210]⟩, ⟨.leaf 65535 .hard, []⟩, ⟨.leaf 0 .yes, [211]⟩, ⟨.leaf 0 .yes, [212]⟩, ⟨.leaf 16 .yes,
  [213, 217]⟩, ⟨.leaf 0 .hard, [214]⟩, ⟨.leaf 0 .yes, [215]⟩, ⟨.leaf 16 .yes, [213, 217]⟩, ⟨.leaf 65535 .hard, []⟩, ⟨.fin 2 65535 13 6 65535 false
  .yes, []⟩, ⟨.leaf 0 .yes, [219]⟩, ⟨.leaf 0 .yes, [220]⟩, ⟨.leaf 20 .yes, [221]⟩, ⟨.leaf 0 .yes, [222]⟩, ⟨.leaf 0 .yes, [223]⟩, ⟨.leaf 21 .yes,
  [224]⟩, ⟨.leaf 0 .yes, [225]⟩, ⟨.leaf 0 .yes, [226]⟩, ⟨.leaf 11 .yes, [227]⟩, ⟨.leaf 0 .yes, [228]⟩, ⟨.leaf 0 .yes, [229]⟩, ⟨.leaf 22 .yes, [245]⟩,
  ⟨.leaf 0 .yes, [231]⟩, ⟨.leaf 0 .yes, [232]⟩, ⟨.leaf 23 .yes, [233]⟩, ⟨.leaf 0 .yes, [234]⟩, ⟨.leaf 0 .yes, [235]⟩, ⟨.leaf 24 .yes, [236]⟩, ⟨.leaf 0
  .yes, [237]⟩, ⟨.leaf 0 .yes, [238]⟩, ⟨.leaf 25 .yes, [239]⟩, ⟨.leaf 0 .yes, [240]⟩, ⟨.leaf 0 .yes, [241]⟩, ⟨.leaf 26 .yes, [242]⟩, ⟨.leaf 0 .yes,
  [243]⟩, ⟨.leaf 0 .yes, [244]⟩, ⟨.leaf 22 .yes, [245]⟩, ⟨.fin 3 65535 14 6 65535 false .yes, []⟩, ⟨.leaf 0 .yes, [247]⟩, ⟨.leaf 0 .yes, [248]⟩,
  ⟨.leaf 27 .yes, [249]⟩, ⟨.leaf 0 .yes, [250]⟩, ⟨.leaf 0 .yes, [251]⟩, ⟨.leaf 11 .yes, [252]⟩, ⟨.leaf 0 .yes, [253]⟩, ⟨.leaf 0 .yes, [254]⟩, ⟨.leaf
  25 .yes, [255]⟩, ⟨.leaf 0 .yes, [256]⟩, ⟨.leaf 0 .yes, [257]⟩, ⟨.leaf 25 .yes, [258]⟩, ⟨.fin 9 65535 15 6 65535 false .yes, []⟩, ⟨.leaf 0 .yes,
  [260]⟩, ⟨.leaf 0 .yes, [261]⟩, ⟨.leaf 28 .yes, [262]⟩, ⟨.fin 4 65535 16 2 6 false .yes, []⟩, ⟨.leaf 0 .yes, [264]⟩, ⟨.leaf 0 .yes, [265]⟩, ⟨.leaf 29
  .yes, [266]⟩, ⟨.fin 7 65535 17 7 6 false .yes, []⟩, ⟨.leaf 0 .yes, [268]⟩, ⟨.leaf 0 .yes, [269]⟩, ⟨.leaf 30 .yes, [270, 273]⟩, ⟨.leaf 0 .hard,
  [271]⟩, ⟨.leaf 0 .yes, [272]⟩, ⟨.leaf 30 .yes, [270, 273]⟩, ⟨.fin 65534 65535 18 5 65535 false .yes, []⟩, ⟨.leaf 0 .yes, [275]⟩, ⟨.leaf 0 .yes,
  [276]⟩, ⟨.leaf 1 .yes, [277]⟩, ⟨.fin 6 65535 19 65535 65535 true .yes, []⟩, ⟨.leaf 0 .yes, [279]⟩, ⟨.leaf 0 .yes, [280]⟩, ⟨.leaf 2 .yes, [281]⟩,
  ⟨.fin 65534 65535 20 3 65535 false .yes, []⟩, ⟨.leaf 0 .yes, [283]⟩, ⟨.leaf 0 .yes, [284]⟩, ⟨.leaf 3 .yes, [285, 288]⟩, ⟨.leaf 0 .hard, [286]⟩,
  ⟨.leaf 0 .yes, [287]⟩, ⟨.leaf 3 .yes, [285, 288]⟩, ⟨.fin 65534 65535 21 6 65535 false .yes, []⟩]

theorem part6 : (Slim.loop Ex.tr24 id false false [stored.states.getD 6 []] [36] (heap5, [1, 2, 3, 4, 5, 6, 7, 8, 9, 10, 11, 12, 13, 14, 15, 16, 17, 18], 18)).toOption =
    some (heap6, [1, 2, 3, 4, 5, 6, 7, 8, 9, 10, 11, 12, 13, 14, 15, 16, 17, 18, 19, 20, 21], 21) := by decide +kernel

def heapm7 : Heap := [⟨.leaf 0 .yes, [1]⟩, ⟨.leaf 0 .yes, [2]⟩, ⟨.leaf 1 .yes, [3]⟩, ⟨.fin 4 65535 1 2 1 false .yes, []⟩, ⟨.leaf 0 .yes, [5]⟩, ⟨.leaf
  0 .yes, [6]⟩, ⟨.leaf 2 .yes, [7]⟩, ⟨.fin 7 65535 2 7 1 false .yes, []⟩, ⟨.leaf 0 .yes, [9]⟩, ⟨.leaf 0 .yes, [10]⟩, ⟨.leaf 3 .yes, [11, 14]⟩, ⟨.leaf
  0 .hard, [12]⟩, ⟨.leaf 0 .yes, [13]⟩, ⟨.leaf 3 .yes, [11, 14]⟩, ⟨.fin 65534 65535 3 0 65535 false .yes, []⟩, ⟨.leaf 0 .yes, [16]⟩, ⟨.leaf 0 .yes,
  [17]⟩, ⟨.leaf 1 .yes, [18, 21]⟩, ⟨.leaf 0 .hard, [19]⟩, ⟨.leaf 0 .yes, [20]⟩, ⟨.leaf 1 .yes, [18, 21]⟩, ⟨.fin 65534 65535 4 1 65535 false .yes, []⟩,
  ⟨.leaf 0 .yes, [23]⟩, ⟨.leaf 0 .yes, [24]⟩, ⟨.leaf 1 .yes, [25]⟩, ⟨.fin 6 65535 5 65535 65535 true .yes, []⟩, ⟨.leaf 0 .yes, [27]⟩, ⟨.leaf 0 .yes,
  [28]⟩, ⟨.leaf 2 .yes, [29, 32, 35, 38, 41, 44, 65]⟩, ⟨.leaf 0 .hard, [30]⟩, ⟨.leaf 0 .yes, [31]⟩, ⟨.leaf 3 .yes, [29, 32, 35, 38, 41, 44, 65]⟩,
  ⟨.leaf 0 .hard, [33]⟩, ⟨.leaf 4 .yes, [34]⟩, ⟨.leaf 5 .yes, [29, 32, 35, 38, 41, 44, 65]⟩, ⟨.leaf 6 .hard, [36]⟩, ⟨.leaf 5 .yes, [37]⟩, ⟨.leaf 5
  .yes, [29, 32, 35, 38, 41, 44, 65]⟩, ⟨.leaf 7 .hard, [39]⟩, ⟨.leaf 8 .yes, [40]⟩, ⟨.leaf 5 .yes, [29, 32, 35, 38, 41, 44, 65]⟩, ⟨.leaf 7 .hard,
  [42]⟩, ⟨.leaf 9 .yes, [43]⟩, ⟨.leaf 5 .yes, [29, 32, 35, 38, 41, 44, 65]⟩, ⟨.leaf 0 .hard, [45]⟩, ⟨.leaf 0 .yes, [46]⟩, ⟨.leaf 10 .yes, [47, 50]⟩,
  ⟨.leaf 0 .yes, [48]⟩, ⟨.leaf 0 .yes, [49]⟩, ⟨.leaf 11 .yes, [29, 32, 35, 38, 41, 44, 65]⟩, ⟨.leaf 0 .yes, [51]⟩, ⟨.leaf 0 .yes, [52]⟩, ⟨.leaf 12
  .yes, [53]⟩, ⟨.leaf 0 .yes, [54]⟩, ⟨.leaf 0 .yes, [55]⟩, ⟨.leaf 13 .yes, [56]⟩, ⟨.leaf 0 .yes, [57]⟩, ⟨.leaf 0 .yes, [58]⟩, ⟨.leaf 13 .yes, [59]⟩,
  ⟨.leaf 0 .yes, [60]⟩, ⟨.leaf 0 .yes, [61]⟩, ⟨.leaf 13 .yes, [62]⟩, ⟨.leaf 0 .yes, [63]⟩, ⟨.leaf 0 .yes, [64]⟩, ⟨.leaf 13 .yes, [29, 32, 35, 38, 41,
  44, 65]⟩, ⟨.leaf 0 .yes, [66]⟩, ⟨.leaf 0 .yes, [67]⟩, ⟨.leaf 2 .yes, [68]⟩, ⟨.fin 5 65535 6 4 65535 false .yes, []⟩, ⟨.leaf 0 .yes, [70]⟩, ⟨.leaf 0
  .yes, [71]⟩, ⟨.leaf 14 .yes, [72, 75]⟩, ⟨.leaf 0 .hard, [73]⟩, ⟨.leaf 0 .yes, [74]⟩, ⟨.leaf 14 .yes, [72, 75]⟩, ⟨.fin 65534 65535 7 2 65535 false
  .yes, []⟩, ⟨.leaf 0 .yes, [77]⟩, ⟨.leaf 0 .yes, [78]⟩, ⟨.leaf 1 .yes, [79, 82, 85, 88, 91, 94, 115]⟩, ⟨.leaf 0 .hard, [80]⟩, ⟨.leaf 0 .yes, [81]⟩,
  ⟨.leaf 2 .yes, [79, 82, 85, 88, 91, 94, 115]⟩, ⟨.leaf 0 .hard, [83]⟩, ⟨.leaf 3 .yes, [84]⟩, ⟨.leaf 4 .yes, [79, 82, 85, 88, 91, 94, 115]⟩, ⟨.leaf 5
  .hard, [86]⟩, ⟨.leaf 4 .yes, [87]⟩, ⟨.leaf 4 .yes, [79, 82, 85, 88, 91, 94, 115]⟩, ⟨.leaf 6 .hard, [89]⟩, ⟨.leaf 7 .yes, [90]⟩, ⟨.leaf 4 .yes, [79,
  82, 85, 88, 91, 94, 115]⟩, ⟨.leaf 6 .hard, [92]⟩, ⟨.leaf 8 .yes, [93]⟩, ⟨.leaf 4 .yes, [79, 82, 85, 88, 91, 94, 115]⟩, ⟨.leaf 0 .hard, [95]⟩, ⟨.leaf
  0 .yes, [96]⟩, ⟨.leaf 9 .yes, [97, 100]⟩, ⟨.leaf 0 .yes, [98]⟩, ⟨.leaf 0 .yes, [99]⟩, ⟨.leaf 10 .yes, [79, 82, 85, 88, 91, 94, 115]⟩, ⟨.leaf 0 .yes,
  [101]⟩, ⟨.leaf 0 .yes, [102]⟩, ⟨.leaf 11 .yes, [103]⟩, ⟨.leaf 0 .yes, [104]⟩, ⟨.leaf 0 .yes, [105]⟩, ⟨.leaf 12 .yes, [106]⟩, ⟨.leaf 0 .yes, [107]⟩,
  ⟨.leaf 0 .yes, [108]⟩, ⟨.leaf 12 .yes, [109]⟩, ⟨.leaf 0 .yes, [110]⟩, ⟨.leaf 0 .yes, [111]⟩, ⟨.leaf 12 .yes, [112]⟩, ⟨.leaf 0 .yes, [113]⟩, ⟨.leaf 0
  .yes, [114]⟩, ⟨.leaf 12 .yes, [79, 82, 85, 88, 91, 94, 115]⟩, ⟨.leaf 0 .yes, [116]⟩, ⟨.leaf 0 .yes, [117]⟩, ⟨.leaf 1 .yes, [118]⟩, ⟨.fin 5 65535 8 4
  65535 false .yes, []⟩, ⟨.leaf 0 .yes, [120]⟩, ⟨.leaf 0 .yes, [121]⟩, ⟨.leaf 13 .yes, [122, 125]⟩, ⟨.leaf 0 .hard, [123]⟩, ⟨.leaf 0 .yes, [124]⟩,
  ⟨.leaf 13 .yes, [122, 125]⟩, ⟨.fin 65534 65535 9 3 65535 false .yes, []⟩, ⟨.leaf 0 .yes, [127]⟩, ⟨.leaf 0 .yes, [128]⟩, ⟨.leaf 1 .yes, [129]⟩, ⟨.fin
  65534 65535 10 5 65535 false .yes, []⟩, ⟨.leaf 0 .yes, [131]⟩, ⟨.leaf 0 .yes, [132]⟩, ⟨.leaf 2 .yes, [133, 136]⟩, ⟨.leaf 0 .hard, [134]⟩, ⟨.leaf 0
  .yes, [135]⟩, ⟨.leaf 2 .yes, [133, 136]⟩, ⟨.fin 65534 65535 11 4 65535 false .yes, []⟩, ⟨.leaf 0 .yes, [138]⟩, ⟨.leaf 0 .yes, [139]⟩, ⟨.leaf 1 .yes,
  [140, 143, 146, 149, 152, 155, 176]⟩, ⟨.leaf 0 .hard, [141]⟩, ⟨.leaf 0 .yes, [142]⟩, ⟨.leaf 2 .yes, [140, 143, 146, 149, 152, 155, 176]⟩, ⟨.leaf 0
  .hard, [144]⟩, ⟨.leaf 3 .yes, [145]⟩, ⟨.leaf 4 .yes, [140, 143, 146, 149, 152, 155, 176]⟩, ⟨.leaf 5 .hard, [147]⟩, ⟨.leaf 4 .yes, [148]⟩, ⟨.leaf 4
  .yes, [140, 143, 146, 149, 152, 155, 176]⟩, ⟨.leaf 6 .hard, [150]⟩, ⟨.leaf 7 .yes, [151]⟩, ⟨.leaf 4 .yes, [140, 143, 146, 149, 152, 155, 176]⟩,
  ⟨.leaf 6 .hard, [153]⟩, ⟨.leaf 8 .yes, [154]⟩, ⟨.leaf 4 .yes, [140, 143, 146, 149, 152, 155, 176]⟩, ⟨.leaf 0 .hard, [156]⟩, ⟨.leaf 0 .yes, [157]⟩,
  ⟨.leaf 9 .yes, [158, 161]⟩, ⟨.leaf 0 .yes, [159]⟩, ⟨.leaf 0 .yes, [160]⟩, ⟨.leaf 10 .yes, [140, 143, 146, 149, 152, 155, 176]⟩, ⟨.leaf 0 .yes,
  [162]⟩, ⟨.leaf 0 .yes, [163]⟩, ⟨.leaf 11 .yes, [164]⟩, ⟨.leaf 0 .yes, [165]⟩, ⟨.leaf 0 .yes, [166]⟩, ⟨.leaf 12 .yes, [167]⟩, ⟨.leaf 0 .yes, [168]⟩,
  ⟨.leaf 0 .yes, [169]⟩, ⟨.leaf 12 .yes, [170]⟩, ⟨.leaf 0 .yes, [171]⟩, ⟨.leaf 0 .yes, [172]⟩, ⟨.leaf 12 .yes, [173]⟩, ⟨.leaf 0 .yes, [174]⟩, ⟨.leaf 0
  .yes, [175]⟩, ⟨.leaf 12 .yes, [140, 143, 146, 149, 152, 155, 176]⟩, ⟨.leaf 0 .yes, [177]⟩, ⟨.leaf 0 .yes, [178]⟩, ⟨.leaf 1 .yes, [179]⟩, ⟨.fin 1
  65535 12 6 65535 false .yes, []⟩, ⟨.leaf 0 .hard, [181]⟩, ⟨.leaf 0 .yes, [182]⟩, ⟨.leaf 13 .yes, [184, 187]⟩, ⟨.leaf 65535 .hard, []⟩, ⟨.leaf 0
  .yes, [185]⟩, ⟨.leaf 0 .yes, [186]⟩, ⟨.leaf 14 .yes, [193, 203, 217]⟩, ⟨.leaf 0 .yes, [188]⟩, ⟨.leaf 0 .yes, [189]⟩, ⟨.leaf 15 .yes, [190, 193, 203,
  217]⟩, ⟨.leaf 0 .hard, [191]⟩, ⟨.leaf 0 .yes, [192]⟩, ⟨.leaf 16 .yes, [190, 193, 203, 217]⟩, ⟨.leaf 0 .hard, [194]⟩, ⟨.leaf 0 .yes, [195]⟩, ⟨.leaf
  17 .yes, [196]⟩, ⟨.leaf 0 .yes, [197]⟩, ⟨.leaf 0 .yes, [198]⟩, ⟨.leaf 16 .yes, [199, 203, 217]⟩, ⟨.leaf 0 .hard, [200]⟩, ⟨.leaf 0 .yes, [201]⟩,
  ⟨.leaf 16 .yes, [199, 203, 217]⟩, ⟨.leaf 65535 .hard, []⟩, ⟨.leaf 0 .hard, [204]⟩, ⟨.leaf 0 .yes, [205]⟩, ⟨.leaf 18 .yes, [206, 210]⟩, ⟨.leaf 0
  .hard, [207]⟩, ⟨.leaf 0 .yes, [208]⟩, ⟨.leaf 19 .yes, [210]⟩, ⟨.leaf 65535 .hard, []⟩, ⟨.leaf 0 .yes, [211]⟩, ⟨.leaf 0 .yes, [212]⟩, ⟨.leaf 16 .yes,
  [213, 217]⟩, ⟨.leaf 0 .hard, [214]⟩, ⟨.leaf 0 .yes, [215]⟩, ⟨.leaf 16 .yes, [213, 217]⟩, ⟨.leaf 65535 .hard, []⟩, ⟨.fin 2 65535 13 6 65535 false
  .yes, []⟩, ⟨.leaf 0 .yes, [219]⟩, ⟨.leaf 0 .yes, [220]⟩, ⟨.leaf 20 .yes, [221]⟩, ⟨.leaf 0 .yes, [222]⟩, ⟨.leaf 0 .yes, [223]⟩, ⟨.leaf 21 .yes,
  [224]⟩, ⟨.leaf 0 .yes, [225]⟩, ⟨.leaf 0 .yes, [226]⟩, ⟨.leaf 11 .yes, [227]⟩, ⟨.leaf 0 .yes, [228]⟩, ⟨.leaf 0 .yes, [229]⟩, ⟨.leaf 22 .yes, [245]⟩,
  ⟨.leaf 0 .yes, [231]⟩, ⟨.leaf 0 .yes, [232]⟩, ⟨.leaf 23 .yes, [233]⟩, ⟨.leaf 0 .yes, [234]⟩, ⟨.leaf 0 .yes, [235]⟩, ⟨.leaf 24 .yes, [236]⟩, ⟨.leaf 0
  .yes, [237]⟩, ⟨.leaf 0 .yes, [238]⟩, ⟨.leaf 25 .yes, [239]⟩, ⟨.leaf 0 .yes, [240]⟩, ⟨.leaf 0 .yes, [241]⟩, ⟨.leaf 26 .yes, [242]⟩, ⟨.leaf 0 .yes,
  [243]⟩, ⟨.leaf 0 .yes, [244]⟩, ⟨.leaf 22 .yes, [245]⟩, ⟨.fin 3 65535 14 6 65535 false .yes, []⟩, ⟨.leaf 0 .yes, [247]⟩, ⟨.leaf 0 .yes, [248]⟩,
  ⟨.leaf 27 .yes, [249]⟩, ⟨.leaf 0 .yes, [250]⟩, ⟨.leaf 0 .yes, [251]⟩, ⟨.leaf 11 .yes, [252]⟩, ⟨.leaf 0 .yes, [253]⟩, ⟨.leaf 0 .yes, [254]⟩, ⟨.leaf
  25 .yes, [255]⟩, ⟨.leaf 0 .yes, [256]⟩, ⟨.leaf 0 .yes, [257]⟩, ⟨.leaf 25 .yes, [258]⟩, ⟨.fin 9 65535 15 6 65535 false .yes, []⟩, ⟨.leaf 0 .yes,
  [260]⟩, ⟨.leaf 0 .yes, [261]⟩, ⟨.leaf 28 .yes, [262]⟩, ⟨.fin 4 65535 16 2 6 false .yes, []⟩, ⟨.leaf 0 .yes, [264]⟩, ⟨.leaf 0 .yes, [265]⟩, ⟨.leaf 29
  .yes, [266]⟩, ⟨.fin 7 65535 17 7 6 false .yes, []⟩, ⟨.leaf 0 .yes, [268]⟩, ⟨.leaf 0 .yes, [269]⟩, ⟨.leaf 30 .yes, [270, 273]⟩, ⟨.leaf 0 .hard,
  [271]⟩, ⟨.leaf 0 .yes, [272]⟩, ⟨.leaf 30 .yes, [270, 273]⟩, ⟨.fin 65534 65535 18 5 65535 false .yes, []⟩, ⟨.leaf 0 .yes, [275]⟩, ⟨.leaf 0 .yes,
  [276]⟩, ⟨.leaf 1 .yes, [277]⟩, ⟨.fin 6 65535 19 65535 65535 true .yes, []⟩, ⟨.leaf 0 .yes, [279]⟩, ⟨.leaf 0 .yes, [280]⟩, ⟨.leaf 2 .yes, [281]⟩,
  ⟨.fin 65534 65535 20 3 65535 false .yes, []⟩, ⟨.leaf 0 .yes, [283]⟩, ⟨.leaf 0 .yes, [284]⟩, ⟨.leaf 3 .yes, [285, 288]⟩, ⟨.leaf 0 .hard, [286]⟩,
  ⟨.leaf 0 .yes, [287]⟩, ⟨.leaf 3 .yes, [285, 288]⟩, ⟨.fin 65534 65535 21 6 65535 false .yes, []⟩, ⟨.leaf 0 .yes, [290]⟩, ⟨.leaf 0 .yes, [291]⟩,
  ⟨.leaf 1 .yes, [292]⟩, ⟨.fin 8 65535 22 65535 65535 true .yes, []⟩, ⟨.leaf 0 .yes, [294]⟩, ⟨.leaf 0 .yes, [295]⟩, ⟨.leaf 2 .yes, [296, 299, 302,
  305, 308, 311, 332]⟩, ⟨.leaf 0 .hard, [297]⟩, ⟨.leaf 0 .yes, [298]⟩, ⟨.leaf 3 .yes, [296, 299, 302, 305, 308, 311, 332]⟩, ⟨.leaf 0 .hard, [300]⟩,
  ⟨.leaf 4 .yes, [301]⟩, ⟨.leaf 5 .yes, [296, 299, 302, 305, 308, 311, 332]⟩, ⟨.leaf 6 .hard, [303]⟩, ⟨.leaf 5 .yes, [304]⟩, ⟨.leaf 5 .yes, [296, 299,
  302, 305, 308, 311, 332]⟩, ⟨.leaf 7 .hard, [306]⟩, ⟨.leaf 8 .yes, [307]⟩, ⟨.leaf 5 .yes, [296, 299, 302, 305, 308, 311, 332]⟩, ⟨.leaf 7 .hard,
  [309]⟩, ⟨.leaf 9 .yes, [310]⟩, ⟨.leaf 5 .yes, [296, 299, 302, 305, 308, 311, 332]⟩, ⟨.leaf 0 .hard, [312]⟩, ⟨.leaf 0 .yes, [313]⟩, ⟨.leaf 10 .yes,
  [314, 317]⟩, ⟨.leaf 0 .yes, [315]⟩, ⟨.leaf 0 .yes, [316]⟩, ⟨.leaf 11 .yes, [296, 299, 302, 305, 308, 311, 332]⟩, ⟨.leaf 0 .yes, [318]⟩, ⟨.leaf 0
  .yes, [319]⟩, ⟨.leaf 12 .yes, [320]⟩, ⟨.leaf 0 .yes, [321]⟩, ⟨.leaf 0 .yes, [322]⟩, ⟨.leaf 13 .yes, [323]⟩, ⟨.leaf 0 .yes, [324]⟩, ⟨.leaf 0 .yes,
  [325]⟩, ⟨.leaf 13 .yes, [326]⟩, ⟨.leaf 0 .yes, [327]⟩, ⟨.leaf 0 .yes, [328]⟩, ⟨.leaf 13 .yes, [329]⟩, ⟨.leaf 0 .yes, [330]⟩, ⟨.leaf 0 .yes, [331]⟩,
  ⟨.leaf 13 .yes, [296, 299, 302, 305, 308, 311, 332]⟩, ⟨.leaf 0 .yes, [333]⟩, ⟨.leaf 0 .yes, [334]⟩, ⟨.leaf 2 .yes, [335]⟩, ⟨.fin 1 65535 23 8 65535
  false .yes, []⟩, ⟨.leaf 0 .hard, [337]⟩, ⟨.leaf 0 .yes, [338]⟩, ⟨.leaf 14 .yes, [340, 343]⟩, ⟨.leaf 65535 .hard, []⟩, ⟨.leaf 0 .yes, [341]⟩, ⟨.leaf
  0 .yes, [342]⟩, ⟨.leaf 15 .yes, [349, 359, 373]⟩, ⟨.leaf 0 .yes, [344]⟩, ⟨.leaf 0 .yes, [345]⟩, ⟨.leaf 16 .yes, [346, 349, 359, 373]⟩, ⟨.leaf 0
  .hard, [347]⟩, ⟨.leaf 0 .yes, [348]⟩, ⟨.leaf 17 .yes, [346, 349, 359, 373]⟩, ⟨.leaf 0 .hard, [350]⟩, ⟨.leaf 0 .yes, [351]⟩, ⟨.leaf 18 .yes, [352]⟩,
  ⟨.leaf 0 .yes, [353]⟩, ⟨.leaf 0 .yes, [354]⟩, ⟨.leaf 17 .yes, [355, 359, 373]⟩, ⟨.leaf 0 .hard, [356]⟩, ⟨.leaf 0 .yes, [357]⟩, ⟨.leaf 17 .yes, [355,
  359, 373]⟩, ⟨.leaf 65535 .hard, []⟩, ⟨.leaf 0 .hard, [360]⟩, ⟨.leaf 0 .yes, [361]⟩, ⟨.leaf 19 .yes, [362, 366]⟩, ⟨.leaf 0 .hard, [363]⟩, ⟨.leaf 0
  .yes, [364]⟩, ⟨.leaf 20 .yes, [366]⟩, ⟨.leaf 65535 .hard, []⟩, ⟨.leaf 0 .yes, [367]⟩, ⟨.leaf 0 .yes, [368]⟩, ⟨.leaf 17 .yes, [369, 373]⟩, ⟨.leaf 0
  .hard, [370]⟩, ⟨.leaf 0 .yes, [371]⟩, ⟨.leaf 17 .yes, [369, 373]⟩, ⟨.leaf 65535 .hard, []⟩, ⟨.fin 2 65535 24 8 65535 false .yes, []⟩]

def setsm7 : CharsetMap := [([(0, 0)], 0), ([(0, 254)], 8), ([(0, 255)], 5), ([(1, 254)], 6), ([(1, 255)], 4), ([(16, 16)], 7), ([(32, 33), (35, 91),
  (93, 255)], 3), ([(34, 34)], 2), ([(34, 34), (47, 47), (92, 92), (98, 98), (102, 102), (110, 110), (114, 114), (116, 116)], 11), ([(43, 43), (45,
  45)], 20), ([(45, 45)], 14), ([(46, 46)], 18), ([(48, 48)], 15), ([(48, 57)], 17), ([(48, 57), (65, 70), (97, 102)], 13), ([(49, 57)], 16), ([(69,
  69), (101, 101)], 19), ([(92, 92)], 10), ([(93, 93)], 1), ([(117, 117)], 12), ([(255, 255)], 9)]

def rootm7 : Tree := (.sel (.sel (.seq (.seq (.seq (.leaf 289 false) (.leaf 290 false)) (.leaf 291 false)) (.fin 292)) (.seq (.seq (.seq (.seq (.seq
  (.leaf 293 false) (.leaf 294 false)) (.leaf 295 false)) (.iter (.sel (.sel (.sel (.sel (.sel (.seq (.seq (.leaf 296 false) (.leaf 297 false)) (.leaf
  298 false)) (.seq (.seq (.leaf 299 false) (.leaf 300 false)) (.leaf 301 false))) (.seq (.seq (.leaf 302 false) (.leaf 303 false)) (.leaf 304
  false))) (.seq (.seq (.leaf 305 false) (.leaf 306 false)) (.leaf 307 false))) (.seq (.seq (.leaf 308 false) (.leaf 309 false)) (.leaf 310 false)))
  (.seq (.seq (.seq (.leaf 311 false) (.leaf 312 false)) (.leaf 313 false)) (.sel (.seq (.seq (.leaf 314 false) (.leaf 315 false)) (.leaf 316 false))
  (.seq (.seq (.seq (.leaf 317 false) (.leaf 318 false)) (.leaf 319 false)) (.seq (.seq (.seq (.seq (.seq (.leaf 320 false) (.leaf 321 false)) (.leaf
  322 false)) (.seq (.seq (.leaf 323 false) (.leaf 324 false)) (.leaf 325 false))) (.seq (.seq (.leaf 326 false) (.leaf 327 false)) (.leaf 328
  false))) (.seq (.seq (.leaf 329 false) (.leaf 330 false)) (.leaf 331 false))))))) .hard)) (.seq (.seq (.leaf 332 false) (.leaf 333 false)) (.leaf
  334 false))) (.fin 335))) (.seq (.seq (.seq (.seq (.sel (.seq (.seq (.leaf 336 false) (.leaf 337 false)) (.leaf 338 false)) (.leaf 339 true)) (.sel
  (.seq (.seq (.leaf 340 false) (.leaf 341 false)) (.leaf 342 false)) (.seq (.seq (.seq (.leaf 343 false) (.leaf 344 false)) (.leaf 345 false)) (.iter
  (.seq (.seq (.leaf 346 false) (.leaf 347 false)) (.leaf 348 false)) .hard)))) (.sel (.seq (.seq (.seq (.leaf 349 false) (.leaf 350 false)) (.leaf
  351 false)) (.seq (.seq (.seq (.leaf 352 false) (.leaf 353 false)) (.leaf 354 false)) (.iter (.seq (.seq (.leaf 355 false) (.leaf 356 false)) (.leaf
  357 false)) .hard))) (.leaf 358 true))) (.sel (.seq (.seq (.seq (.seq (.leaf 359 false) (.leaf 360 false)) (.leaf 361 false)) (.sel (.seq (.seq
  (.leaf 362 false) (.leaf 363 false)) (.leaf 364 false)) (.leaf 365 true))) (.seq (.seq (.seq (.leaf 366 false) (.leaf 367 false)) (.leaf 368 false))
  (.iter (.seq (.seq (.leaf 369 false) (.leaf 370 false)) (.leaf 371 false)) .hard))) (.leaf 372 true))) (.fin 373)))

def heap7 : Heap := [⟨.leaf 0 .yes, [1]⟩, ⟨.leaf 0 .yes, [2]⟩, ⟨.leaf 1 .yes, [3]⟩, ⟨.fin 4 65535 1 2 1 false .yes, []⟩, ⟨.leaf 0 .yes, [5]⟩, ⟨.leaf 0
  .yes, [6]⟩, ⟨.leaf 2 .yes, [7]⟩, ⟨.fin 7 65535 2 7 1 false .yes, []⟩, ⟨.leaf 0 .yes, [9]⟩, ⟨.leaf 0 .yes, [10]⟩, ⟨.leaf 3 .yes, [11, 14]⟩, ⟨.leaf 0
  .hard, [12]⟩, ⟨.leaf 0 .yes, [13]⟩, ⟨.leaf 3 .yes, [11, 14]⟩, ⟨.fin 65534 65535 3 0 65535 false .yes, []⟩, ⟨.leaf 0 .yes, [16]⟩, ⟨.leaf 0 .yes,
  [17]⟩, ⟨.leaf 1 .yes, [18, 21]⟩, ⟨.leaf 0 .hard, [19]⟩, ⟨.leaf 0 .yes, [20]⟩, ⟨.leaf 1 .yes, [18, 21]⟩, ⟨.fin 65534 65535 4 1 65535 false .yes, []⟩,
  ⟨.leaf 0 .yes, [23]⟩, ⟨.leaf 0 .yes, [24]⟩, ⟨.leaf 1 .yes, [25]⟩, ⟨.fin 6 65535 5 65535 65535 true .yes, []⟩, ⟨.leaf 0 .yes, [27]⟩, ⟨.leaf 0 .yes,
  [28]⟩, ⟨.leaf 2 .yes, [29, 32, 35, 38, 41, 44, 65]⟩, ⟨.leaf 0 .hard, [30]⟩, ⟨.leaf 0 .yes, [31]⟩, ⟨.leaf 3 .yes, [29, 32, 35, 38, 41, 44, 65]⟩,
  ⟨.leaf 0 .hard, [33]⟩, ⟨.leaf 4 .yes, [34]⟩, ⟨.leaf 5 .yes, [29, 32, 35, 38, 41, 44, 65]⟩, ⟨.leaf 6 .hard, [36]⟩, ⟨.leaf 5 .yes, [37]⟩, ⟨.leaf 5
  .yes, [29, 32, 35, 38, 41, 44, 65]⟩, ⟨.leaf 7 .hard, [39]⟩, ⟨.leaf 8 .yes, [40]⟩, ⟨.leaf 5 .yes, [29, 32, 35, 38, 41, 44, 65]⟩, ⟨.leaf 7 .hard,
  [42]⟩, ⟨.leaf 9 .yes, [43]⟩, ⟨.leaf 5 .yes, [29, 32, 35, 38, 41, 44, 65]⟩, ⟨.leaf 0 .hard, [45]⟩, ⟨.leaf 0 .yes, [46]⟩, ⟨.leaf 10 .yes, [47, 50]⟩,
  ⟨.leaf 0 .yes, [48]⟩, ⟨.leaf 0 .yes, [49]⟩, ⟨.leaf 11 .yes, [29, 32, 35, 38, 41, 44, 65]⟩, ⟨.leaf 0 .yes, [51]⟩, ⟨.leaf 0 .yes, [52]⟩, ⟨.leaf 12
  .yes, [53]⟩, ⟨.leaf 0 .yes, [54]⟩, ⟨.leaf 0 .yes, [55]⟩, ⟨.leaf 13 .yes, [56]⟩, ⟨.leaf 0 .yes, [57]⟩, ⟨.leaf 0 .yes, [58]⟩, ⟨.leaf 13 .yes, [59]⟩,
  ⟨.leaf 0 .yes, [60]⟩, ⟨.leaf 0 .yes, [61]⟩, ⟨.leaf 13 .yes, [62]⟩, ⟨.leaf 0 .yes, [63]⟩, ⟨.leaf 0 .yes, [64]⟩, ⟨.leaf 13 .yes, [29, 32, 35, 38, 41,
  44, 65]⟩, ⟨.leaf 0 .yes, [66]⟩, ⟨.leaf 0 .yes, [67]⟩, ⟨.leaf 2 .yes, [68]⟩, ⟨.fin 5 65535 6 4 65535 false .yes, []⟩, ⟨.leaf 0 .yes, [70]⟩, ⟨.leaf 0
  .yes, [71]⟩, ⟨.leaf 14 .yes, [72, 75]⟩, ⟨.leaf 0 .hard, [73]⟩, ⟨.leaf 0 .yes, [74]⟩, ⟨.leaf 14 .yes, [72, 75]⟩, ⟨.fin 65534 65535 7 2 65535 false
  .yes, []⟩, ⟨.leaf 0 .yes, [77]⟩, ⟨.leaf 0 .yes, [78]⟩, ⟨.leaf 1 .yes, [79, 82, 85, 88, 91, 94, 115]⟩, ⟨.leaf 0 .hard, [80]⟩, ⟨.leaf 0 .yes, [81]⟩,
  ⟨.leaf 2 .yes, [79, 82, 85, 88, 91, 94, 115]⟩, ⟨.leaf 0 .hard, [83]⟩, ⟨.leaf 3 .yes, [84]⟩, ⟨.leaf 4 .yes, [79, 82, 85, 88, 91, 94, 115]⟩, ⟨.leaf 5
  .hard, [86]⟩, ⟨.leaf 4 .yes, [87]⟩, ⟨.leaf 4 .yes, [79, 82, 85, 88, 91, 94, 115]⟩, ⟨.leaf 6 .hard, [89]⟩, ⟨.leaf 7 .yes, [90]⟩, ⟨.leaf 4 .yes, [79,
  82, 85, 88, 91, 94, 115]⟩, ⟨.leaf 6 .hard, [92]⟩, ⟨.leaf 8 .yes, [93]⟩, ⟨.leaf 4 .yes, [79, 82, 85, 88, 91, 94, 115]⟩, ⟨.leaf 0 .hard, [95]⟩, ⟨.leaf
  0 .yes, [96]⟩, ⟨.leaf 9 .yes, [97, 100]⟩, ⟨.leaf 0 .yes, [98]⟩, ⟨.leaf 0 .yes, [99]⟩, ⟨.leaf 10 .yes, [79, 82, 85, 88, 91, 94, 115]⟩, ⟨.leaf 0 .yes,
  [101]⟩, ⟨.leaf 0 .yes, [102]⟩, ⟨.leaf 11 .yes, [103]⟩, ⟨.leaf 0 .yes, [104]⟩, ⟨.leaf 0 .yes, [105]⟩, ⟨.leaf 12 .yes, [106]⟩, ⟨.leaf 0 .yes, [107]⟩,
  ⟨.leaf 0 .yes, [108]⟩, ⟨.leaf 12 .yes, [109]⟩, ⟨.leaf 0 .yes, [110]⟩, ⟨.leaf 0 .yes, [111]⟩, ⟨.leaf 12 .yes, [112]⟩, ⟨.leaf 0 .yes, [113]⟩, ⟨.leaf 0
  .yes, [114]⟩, ⟨.leaf 12 .yes, [79, 82, 85, 88, 91, 94, 115]⟩, ⟨.leaf 0 .yes, [116]⟩, ⟨.leaf 0 .yes, [117]⟩, ⟨.leaf 1 .yes, [118]⟩, ⟨.fin 5 65535 8 4
  65535 false .yes, []⟩, ⟨.leaf 0 .yes, [120]⟩, ⟨.leaf 0 .yes, [121]⟩, ⟨.leaf 13 .yes, [122, 125]⟩, ⟨.leaf 0 .hard, [123]⟩, ⟨.leaf 0 .yes, [124]⟩,
  ⟨.leaf 13 .yes, [122, 125]⟩, ⟨.fin 65534 65535 9 3 65535 false .yes, []⟩, ⟨.leaf 0 .yes, [127]⟩, ⟨.leaf 0 .yes, [128]⟩, ⟨.leaf 1 .yes, [129]⟩, ⟨.fin
  65534 65535 10 5 65535 false .yes, []⟩, ⟨.leaf 0 .yes, [131]⟩, ⟨.leaf 0 .yes, [132]⟩, ⟨.leaf 2 .yes, [133, 136]⟩, ⟨.leaf 0 .hard, [134]⟩, ⟨.leaf 0
  .yes, [135]⟩, ⟨.leaf 2 .yes, [133, 136]⟩, ⟨.fin 65534 65535 11 4 65535 false .yes, []⟩, ⟨.leaf 0 .yes, [138]⟩, ⟨.leaf 0 .yes, [139]⟩, ⟨.leaf 1 .yes,
  [140, 143, 146, 149, 152, 155, 176]⟩, ⟨.leaf 0 .hard, [141]⟩, ⟨.leaf 0 .yes, [142]⟩, ⟨.leaf 2 .yes, [140, 143, 146, 149, 152, 155, 176]⟩, ⟨.leaf 0
  .hard, [144]⟩, ⟨.leaf 3 .yes, [145]⟩, ⟨.leaf 4 .yes, [140, 143, 146, 149, 152, 155, 176]⟩, ⟨.leaf 5 .hard, [147]⟩, ⟨.leaf 4 .yes, [148]⟩, ⟨.leaf 4
  .yes, [140, 143, 146, 149, 152, 155, 176]⟩, ⟨.leaf 6 .hard, [150]⟩, ⟨.leaf 7 .yes, [151]⟩, ⟨.leaf 4 .yes, [140, 143, 146, 149, 152, 155, 176]⟩,
  ⟨.leaf 6 .hard, [153]⟩, ⟨.leaf 8 .yes, [154]⟩, ⟨.leaf 4 .yes, [140, 143, 146, 149, 152, 155, 176]⟩, ⟨.leaf 0 .hard, [156]⟩, ⟨.leaf 0 .yes, [157]⟩,
  ⟨.leaf 9 .yes, [158, 161]⟩, ⟨.leaf 0 .yes, [159]⟩, ⟨.leaf 0 .yes, [160]⟩, ⟨.leaf 10 .yes, [140, 143, 146, 149, 152, 155, 176]⟩, ⟨.leaf 0 .yes,
  [162]⟩, ⟨.leaf 0 .yes, [163]⟩, ⟨.leaf 11 .yes, [164]⟩, ⟨.leaf 0 .yes, [165]⟩, ⟨.leaf 0 .yes, [166]⟩, ⟨.leaf 12 .yes, [167]⟩, ⟨.leaf 0 .yes, [168]⟩,
  ⟨.leaf 0 .yes, [169]⟩, ⟨.leaf 12 .yes, [170]⟩, ⟨.leaf 0 .yes, [171]⟩, ⟨.leaf 0 .yes, [172]⟩, ⟨.leaf 12 .yes, [173]⟩, ⟨.leaf 0 .yes, [174]⟩, ⟨.leaf 0
  .yes, [175]⟩, ⟨.leaf 12 .yes, [140, 143, 146, 149, 152, 155, 176]⟩, ⟨.leaf 0 .yes, [177]⟩, ⟨.leaf 0 .yes, [178]⟩, ⟨.leaf 1 .yes, [179]⟩, ⟨.fin 1
  65535 12 6 65535 false .yes, []⟩, ⟨.leaf 0 .hard, [181]⟩, ⟨.leaf 0 .yes, [182]⟩, ⟨.leaf 13 .yes, [184, 187]⟩, ⟨.leaf 65535 .hard, []⟩, ⟨.leaf 0
  .yes, [185]⟩, ⟨.leaf 0 .yes, [186]⟩, ⟨.leaf 14 .yes, [193, 203, 217]⟩, ⟨.leaf 0 .yes, [188]⟩, ⟨.leaf 0 .yes, [189]⟩, ⟨.leaf 15 .yes, [190, 193, 203,
  217]⟩, ⟨.leaf 0 .hard, [191]⟩, ⟨.leaf 0 .yes, [192]⟩, ⟨.leaf 16 .yes, [190, 193, 203, 217]⟩, ⟨.leaf 0 .hard, [194]⟩, ⟨.leaf 0 .yes, [195]⟩, ⟨.leaf
  17 .yes, [196]⟩, ⟨.leaf 0 .yes, [197]⟩, ⟨.leaf 0 .yes, [198]⟩, ⟨.leaf 16 .yes, [199, 203, 217]⟩, ⟨.leaf 0 .hard, [200]⟩, ⟨.leaf 0 .yes, [201]⟩,
  ⟨.leaf 16 .yes, [199, 203, 217]⟩, ⟨.leaf 65535 .hard, []⟩, ⟨.leaf 0 .hard, [204]⟩, ⟨.leaf 0 .yes, [205]⟩, ⟨.leaf 18 .yes, [206, 210]⟩, ⟨.leaf 0
  .hard, [207]⟩, ⟨.leaf 0 .yes, [208]⟩, ⟨.leaf 19 .yes, [210]⟩, ⟨.leaf 65535 .hard, []⟩, ⟨.leaf 0 .yes, [211]⟩, ⟨.leaf 0 .yes, [212]⟩, ⟨.leaf 16 .yes,
  [213, 217]⟩, ⟨.leaf 0 .hard, [214]⟩, ⟨.leaf 0 .yes, [215]⟩, ⟨.leaf 16 .yes, [213, 217]⟩, ⟨.leaf 65535 .hard, []⟩, ⟨.fin 2 65535 13 6 65535 false
  .yes, []⟩, ⟨.leaf 0 .yes, [219]⟩, ⟨.leaf 0 .yes, [220]⟩, ⟨.leaf 20 .yes, [221]⟩, ⟨.leaf 0 .yes, [222]⟩, ⟨.leaf 0 .yes, [223]⟩, ⟨.leaf 21 .yes,
  [224]⟩, ⟨.leaf 0 .yes, [225]⟩, ⟨.leaf 0 .yes, [226]⟩, ⟨.leaf 11 .yes, [227]⟩, ⟨.leaf 0 .yes, [228]⟩, ⟨.leaf 0 .yes, [229]⟩, ⟨.leaf 22 .yes, [245]⟩,
  ⟨.leaf 0 .yes, [231]⟩, ⟨.leaf 0 .yes, [232]⟩, ⟨.leaf 23 .yes, [233]⟩, ⟨.leaf 0 .yes, [234]⟩, ⟨.leaf 0 .yes, [235]⟩, ⟨.leaf 24 .yes, [236]⟩, ⟨.leaf 0
  .yes, [237]⟩, ⟨.leaf 0 .yes, [238]⟩, ⟨.leaf 25 .yes, [239]⟩, ⟨.leaf 0 .yes, [240]⟩, ⟨.leaf 0 .yes, [241]⟩, ⟨.leaf 26 .yes, [242]⟩, ⟨.leaf 0 .yes,
  [243]⟩, ⟨.leaf 0 .yes, [244]⟩, ⟨.leaf 22 .yes, [245]⟩, ⟨.fin 3 65535 14 6 65535 false .yes, []⟩, ⟨.leaf 0 .yes, [247]⟩, ⟨.leaf 0 .yes, [248]⟩,
  ⟨.leaf 27 .yes, [249]⟩, ⟨.leaf 0 .yes, [250]⟩, ⟨.leaf 0 .yes, [251]⟩, ⟨.leaf 11 .yes, [252]⟩, ⟨.leaf 0 .yes, [253]⟩, ⟨.leaf 0 .yes, [254]⟩, ⟨.leaf
  25 .yes, [255]⟩, ⟨.leaf 0 .yes, [256]⟩, ⟨.leaf 0 .yes, [257]⟩, ⟨.leaf 25 .yes, [258]⟩, ⟨.fin 9 65535 15 6 65535 false .yes, []⟩, ⟨.leaf 0 .yes,
  [260]⟩, ⟨.leaf 0 .yes, [261]⟩, ⟨.leaf 28 .yes, [262]⟩, ⟨.fin 4 65535 16 2 6 false .yes, []⟩, ⟨.leaf 0 .yes, [264]⟩, ⟨.leaf 0 .yes, [265]⟩, ⟨.leaf 29
  .yes, [266]⟩, ⟨.fin 7 65535 17 7 6 false .yes, []⟩, ⟨.leaf 0 .yes, [268]⟩, ⟨.leaf 0 .yes, [269]⟩, ⟨.leaf 30 .yes, [270, 273]⟩, ⟨.leaf 0 .hard,
  [271]⟩, ⟨.leaf 0 .yes, [272]⟩, ⟨.leaf 30 .yes, [270, 273]⟩, ⟨.fin 65534 65535 18 5 65535 false .yes, []⟩, ⟨.leaf 0 .yes, [275]⟩, ⟨.leaf 0 .yes,
  [276]⟩, ⟨.leaf 1 .yes, [277]⟩, ⟨.fin 6 65535 19 65535 65535 true .yes, []⟩, ⟨.leaf 0 .yes, [279]⟩, ⟨.leaf 0 .yes, [280]⟩, ⟨.leaf 2 .yes, [281]⟩,
  ⟨.fin 65534 65535 20 3 65535 false .yes, []⟩, ⟨.leaf 0 .yes, [283]⟩, ⟨.leaf 0 .yes, [284]⟩, ⟨.leaf 3 .yes, [285, 288]⟩, ⟨.leaf 0 .hard, [286]⟩,
  ⟨.leaf 0 .yes, [287]⟩, ⟨.leaf 3 .yes, [285, 288]⟩, ⟨.fin 65534 65535 21 6 65535 false .yes, []⟩, ⟨.leaf 0 .yes, [290]⟩, ⟨.leaf 0 .yes, [291]⟩,
  ⟨.leaf 1 .yes, [292]⟩, ⟨.fin 8 65535 22 65535 65535 true .yes, []⟩, ⟨.leaf 0 .yes, [294]⟩, ⟨.leaf 0 .yes, [295]⟩, ⟨.leaf 2 .yes, [296, 299, 302,
  305, 308, 311, 332]⟩, ⟨.leaf 0 .hard, [297]⟩, ⟨.leaf 0 .yes, [298]⟩, ⟨.leaf 3 .yes, [296, 299, 302, 305, 308, 311, 332]⟩, ⟨.leaf 0 .hard, [300]⟩,
  ⟨.leaf 4 .yes, [301]⟩, ⟨.leaf 5 .yes, [296, 299, 302, 305, 308, 311, 332]⟩, ⟨.leaf 6 .hard, [303]⟩, ⟨.leaf 5 .yes, [304]⟩, ⟨.leaf 5 .yes, [296, 299,
  302, 305, 308, 311, 332]⟩, ⟨.leaf 7 .hard, [306]⟩, ⟨.leaf 8 .yes, [307]⟩, ⟨.leaf 5 .yes, [296, 299, 302, 305, 308, 311, 332]⟩, ⟨.leaf 7 .hard,
  [309]⟩, ⟨.leaf 9 .yes, [310]⟩, ⟨.leaf 5 .yes, [296, 299, 302, 305, 308, 311, 332]⟩, ⟨.leaf 0 .hard, [312]⟩, ⟨.leaf 0 .yes, [313]⟩, ⟨.leaf 10 .yes,
  [314, 317]⟩, ⟨.leaf 0 .yes, [315]⟩, ⟨.leaf 0 .yes, [316]⟩, ⟨.leaf 11 .yes, [296, 299, 302, 305, 308, 311, 332]⟩, ⟨.leaf 0 .yes, [318]⟩, ⟨.leaf 0
  .yes, [319]⟩, ⟨.leaf 12 .yes, [320]⟩, ⟨.leaf 0 .yes, [321]⟩, ⟨.leaf 0 .yes, [322]⟩, ⟨.leaf 13 .yes, [323]⟩, ⟨.leaf 0 .yes, [324]⟩, ⟨.leaf 0 .yes,
  [325]⟩, ⟨.leaf 13 .yes, [326]⟩, ⟨.leaf 0 .yes, [327]⟩, ⟨.leaf 0 .yes, [328]⟩, ⟨.leaf 13 .yes, [329]⟩, ⟨.leaf 0 .yes, [330]⟩, ⟨.leaf 0 .yes, [331]⟩,
  ⟨.leaf 13 .yes, [296, 299, 302, 305, 308, 311, 332]⟩, ⟨.leaf 0 .yes, [333]⟩, ⟨.leaf 0 .yes, [334]⟩, ⟨.leaf 2 .yes, [335]⟩, ⟨.fin 1 65535 23 8 65535
  false .yes, []⟩, ⟨.leaf 0 .hard, [337]⟩, ⟨.leaf 0 .yes, [338]⟩, ⟨.leaf 14 .yes, [340, 343]⟩, ⟨.leaf 65535 .hard, []⟩, ⟨.leaf 0 .yes, [341]⟩, ⟨.leaf
  0 .yes, [342]⟩, ⟨.leaf 15 .yes, [349, 359, 373]⟩, ⟨.leaf 0 .yes, [344]⟩, ⟨.leaf 0 .yes, [345]⟩, ⟨.leaf 16 .yes, [346, 349, 359, 373]⟩, ⟨.leaf 0
  .hard, [347]⟩, ⟨.leaf 0 .yes, [348]⟩, ⟨.leaf 17 .yes, [346, 349, 359, 373]⟩, ⟨.leaf 0 .hard, [350]⟩, ⟨.leaf 0 .yes, [351]⟩, ⟨.leaf 18 .yes, [352]⟩,
  ⟨.leaf 0 .yes, [353]⟩, ⟨.leaf 0 .yes, [354]⟩, ⟨.leaf 17 .yes, [355, 359, 373]⟩, ⟨.leaf 0 .hard, [356]⟩, ⟨.leaf 0 .yes, [357]⟩, ⟨.leaf 17 .yes, [355,
  359, 373]⟩, ⟨.leaf 65535 .hard, []⟩, ⟨.leaf 0 .hard, [360]⟩, ⟨.leaf 0 .yes, [361]⟩, ⟨.leaf 19 .yes, [362, 366]⟩, ⟨.leaf 0 .hard, [363]⟩, ⟨.leaf 0
  .yes, [364]⟩, ⟨.leaf 20 .yes, [366]⟩, ⟨.leaf 65535 .hard, []⟩, ⟨.leaf 0 .yes, [367]⟩, ⟨.leaf 0 .yes, [368]⟩, ⟨.leaf 17 .yes, [369, 373]⟩, ⟨.leaf 0
  .hard, [370]⟩, ⟨.leaf 0 .yes, [371]⟩, ⟨.leaf 17 .yes, [369, 373]⟩, ⟨.leaf 65535 .hard, []⟩, ⟨.fin 2 65535 24 8 65535 false .yes, []⟩, ⟨.leaf 0 .yes,
  [375]⟩, ⟨.leaf 0 .yes, [376]⟩, ⟨.leaf 21 .yes, [377]⟩, ⟨.leaf 0 .yes, [378]⟩, ⟨.leaf 0 .yes, [379]⟩, ⟨.leaf 22 .yes, [380]⟩, ⟨.leaf 0 .yes, [381]⟩,
  ⟨.leaf 0 .yes, [382]⟩, ⟨.leaf 12 .yes, [383]⟩, ⟨.leaf 0 .yes, [384]⟩, ⟨.leaf 0 .yes, [385]⟩, ⟨.leaf 23 .yes, [401]⟩, ⟨.leaf 0 .yes, [387]⟩, ⟨.leaf 0
  .yes, [388]⟩, ⟨.leaf 24 .yes, [389]⟩, ⟨.leaf 0 .yes, [390]⟩, ⟨.leaf 0 .yes, [391]⟩, ⟨.leaf 25 .yes, [392]⟩, ⟨.leaf 0 .yes, [393]⟩, ⟨.leaf 0 .yes,
  [394]⟩, ⟨.leaf 26 .yes, [395]⟩, ⟨.leaf 0 .yes, [396]⟩, ⟨.leaf 0 .yes, [397]⟩, ⟨.leaf 27 .yes, [398]⟩, ⟨.leaf 0 .yes, [399]⟩, ⟨.leaf 0 .yes, [400]⟩,
  ⟨.leaf 23 .yes, [401]⟩, ⟨.fin 3 65535 25 8 65535 false .yes, []⟩, ⟨.leaf 0 .yes, [403]⟩, ⟨.leaf 0 .yes, [404]⟩, ⟨.leaf 28 .yes, [405]⟩, ⟨.leaf 0
  .yes, [406]⟩, ⟨.leaf 0 .yes, [407]⟩, ⟨.leaf 12 .yes, [408]⟩, ⟨.leaf 0 .yes, [409]⟩, ⟨.leaf 0 .yes, [410]⟩, ⟨.leaf 26 .yes, [411]⟩, ⟨.leaf 0 .yes,
  [412]⟩, ⟨.leaf 0 .yes, [413]⟩, ⟨.leaf 26 .yes, [414]⟩, ⟨.fin 9 65535 26 8 65535 false .yes, []⟩, ⟨.leaf 0 .yes, [416]⟩, ⟨.leaf 0 .yes, [417]⟩,
  ⟨.leaf 29 .yes, [418]⟩, ⟨.fin 4 65535 27 2 8 false .yes, []⟩, ⟨.leaf 0 .yes, [420]⟩, ⟨.leaf 0 .yes, [421]⟩, ⟨.leaf 30 .yes, [422]⟩, ⟨.fin 7 65535 28
  7 8 false .yes, []⟩, ⟨.leaf 0 .yes, [424]⟩, ⟨.leaf 0 .yes, [425]⟩, ⟨.leaf 31 .yes, [426, 429]⟩, ⟨.leaf 0 .hard, [427]⟩, ⟨.leaf 0 .yes, [428]⟩,
  ⟨.leaf 31 .yes, [426, 429]⟩, ⟨.fin 65534 65535 29 7 65535 false .yes, []⟩]

def sets7 : CharsetMap := [([(0, 0)], 0), ([(0, 254)], 8), ([(0, 255)], 5), ([(1, 254)], 6), ([(1, 255)], 4), ([(9, 10), (13, 13), (32, 32)], 31),
  ([(16, 16)], 7), ([(32, 33), (35, 91), (93, 255)], 3), ([(34, 34)], 2), ([(34, 34), (47, 47), (92, 92), (98, 98), (102, 102), (110, 110), (114,
  114), (116, 116)], 11), ([(43, 43), (45, 45)], 20), ([(45, 45)], 14), ([(46, 46)], 18), ([(48, 48)], 15), ([(48, 57)], 17), ([(48, 57), (65, 70),
  (97, 102)], 13), ([(49, 57)], 16), ([(69, 69), (101, 101)], 19), ([(91, 91)], 30), ([(92, 92)], 10), ([(93, 93)], 1), ([(97, 97)], 25), ([(101,
  101)], 23), ([(102, 102)], 24), ([(108, 108)], 26), ([(110, 110)], 28), ([(114, 114)], 22), ([(115, 115)], 27), ([(116, 116)], 21), ([(117, 117)],
  12), ([(123, 123)], 29), ([(255, 255)], 9)]

def root7 : Tree := (.sel (.sel (.sel (.sel (.sel (.sel (.sel (.seq (.seq (.seq (.leaf 289 false) (.leaf 290 false)) (.leaf 291 false)) (.fin 292))
  (.seq (.seq (.seq (.seq (.seq (.leaf 293 false) (.leaf 294 false)) (.leaf 295 false)) (.iter (.sel (.sel (.sel (.sel (.sel (.seq (.seq (.leaf 296
  false) (.leaf 297 false)) (.leaf 298 false)) (.seq (.seq (.leaf 299 false) (.leaf 300 false)) (.leaf 301 false))) (.seq (.seq (.leaf 302 false)
  (.leaf 303 false)) (.leaf 304 false))) (.seq (.seq (.leaf 305 false) (.leaf 306 false)) (.leaf 307 false))) (.seq (.seq (.leaf 308 false) (.leaf 309
  false)) (.leaf 310 false))) (.seq (.seq (.seq (.leaf 311 false) (.leaf 312 false)) (.leaf 313 false)) (.sel (.seq (.seq (.leaf 314 false) (.leaf 315
  false)) (.leaf 316 false)) (.seq (.seq (.seq (.leaf 317 false) (.leaf 318 false)) (.leaf 319 false)) (.seq (.seq (.seq (.seq (.seq (.leaf 320 false)
  (.leaf 321 false)) (.leaf 322 false)) (.seq (.seq (.leaf 323 false) (.leaf 324 false)) (.leaf 325 false))) (.seq (.seq (.leaf 326 false) (.leaf 327
  false)) (.leaf 328 false))) (.seq (.seq (.leaf 329 false) (.leaf 330 false)) (.leaf 331 false))))))) .hard)) (.seq (.seq (.leaf 332 false) (.leaf
  333 false)) (.leaf 334 false))) (.fin 335))) (.seq (.seq (.seq (.seq (.sel (.seq (.seq (.leaf 336 false) (.leaf 337 false)) (.leaf 338 false))
  (.leaf 339 true)) (.sel (.seq (.seq (.leaf 340 false) (.leaf 341 false)) (.leaf 342 false)) (.seq (.seq (.seq (.leaf 343 false) (.leaf 344 false))
  (.leaf 345 false)) (.iter (.seq (.seq (.leaf 346 false) (.leaf 347 false)) (.leaf 348 false)) .hard)))) (.sel (.seq (.seq (.seq (.leaf 349 false)
  (.leaf 350 false)) (.leaf 351 false)) (.seq (.seq (.seq (.leaf 352 false) (.leaf 353 false)) (.leaf 354 false)) (.iter (.seq (.seq (.leaf 355 false)
  (.leaf 356 false)) (.leaf 357 false)) .hard))) (.leaf 358 true))) (.sel (.seq (.seq (.seq (.seq (.leaf 359 false) (.leaf 360 false)) (.leaf 361
  false)) (.sel (.seq (.seq (.leaf 362 false) (.leaf 363 false)) (.leaf 364 false)) (.leaf 365 true))) (.seq (.seq (.seq (.leaf 366 false) (.leaf 367
  false)) (.leaf 368 false)) (.iter (.seq (.seq (.leaf 369 false) (.leaf 370 false)) (.leaf 371 false)) .hard))) (.leaf 372 true))) (.fin 373))) (.seq
  (.sel (.seq (.seq (.seq (.seq (.seq (.leaf 374 false) (.leaf 375 false)) (.leaf 376 false)) (.seq (.seq (.leaf 377 false) (.leaf 378 false)) (.leaf
  379 false))) (.seq (.seq (.leaf 380 false) (.leaf 381 false)) (.leaf 382 false))) (.seq (.seq (.leaf 383 false) (.leaf 384 false)) (.leaf 385
  false))) (.seq (.seq (.seq (.seq (.seq (.seq (.leaf 386 false) (.leaf 387 false)) (.leaf 388 false)) (.seq (.seq (.leaf 389 false) (.leaf 390
  false)) (.leaf 391 false))) (.seq (.seq (.leaf 392 false) (.leaf 393 false)) (.leaf 394 false))) (.seq (.seq (.leaf 395 false) (.leaf 396 false))
  (.leaf 397 false))) (.seq (.seq (.leaf 398 false) (.leaf 399 false)) (.leaf 400 false)))) (.fin 401))) (.seq (.seq (.seq (.seq (.seq (.seq (.leaf
  402 false) (.leaf 403 false)) (.leaf 404 false)) (.seq (.seq (.leaf 405 false) (.leaf 406 false)) (.leaf 407 false))) (.seq (.seq (.leaf 408 false)
  (.leaf 409 false)) (.leaf 410 false))) (.seq (.seq (.leaf 411 false) (.leaf 412 false)) (.leaf 413 false))) (.fin 414))) (.seq (.seq (.seq (.leaf
  415 false) (.leaf 416 false)) (.leaf 417 false)) (.fin 418))) (.seq (.seq (.seq (.leaf 419 false) (.leaf 420 false)) (.leaf 421 false)) (.fin 422)))
  (.seq (.seq (.seq (.seq (.leaf 423 false) (.leaf 424 false)) (.leaf 425 false)) (.iter (.seq (.seq (.leaf 426 false) (.leaf 427 false)) (.leaf 428
  false)) .hard)) (.fin 429)))

theorem tree7a : (buildTree Ex.tr24 false ((stored.states.getD 7 []).take 3) heap6 21).toOption =
    some (⟨heapm7, setsm7, 65535, 65535, []⟩, rootm7, 24) := by decide +kernel

theorem tree7b : (buildTreeRest Ex.tr24 false ((stored.states.getD 7 []).drop 3) ⟨heapm7, setsm7, 65535, 65535, []⟩ rootm7 24).toOption =
    some (⟨heap7, sets7, 65535, 65535, []⟩, root7, 29) := by decide +kernel

theorem dfa7 : (Slim.dfa Ex.tr24 false id heap7 sets7 65535 65535 root7 [1, 2, 3, 4, 5, 6, 7, 8, 9, 10, 11, 12, 13, 14, 15, 16, 17, 18, 19, 20, 21]).toOption.map
    (fun s => (decide (s.seen.length < 60000), s.used)) = some (true, [1, 2, 3, 4, 5, 6, 7, 8, 9, 10, 11, 12, 13, 14, 15, 16, 17, 18, 19, 20, 21, 22, 23, 24, 25, 26, 27, 28, 29]) := by decide +kernel

theorem part7 : Slim.loop Ex.tr24 id false false [stored.states.getD 7 []] [36] (heap6, [1, 2, 3, 4, 5, 6, 7, 8, 9, 10, 11, 12, 13, 14, 15, 16, 17, 18, 19, 20, 21], 21) =
    .ok (heap7, [1, 2, 3, 4, 5, 6, 7, 8, 9, 10, 11, 12, 13, 14, 15, 16, 17, 18, 19, 20, 21, 22, 23, 24, 25, 26, 27, 28, 29], 29) :=
  loop_one (n := 2) (by decide) (by decide +kernel) tree7a tree7b (by decide +kernel) dfa7

def heap8 : Heap := [⟨.leaf 0 .yes, [1]⟩, ⟨.leaf 0 .yes, [2]⟩, ⟨.leaf 1 .yes, [3]⟩, ⟨.fin 4 65535 1 2 1 false .yes, []⟩, ⟨.leaf 0 .yes, [5]⟩, ⟨.leaf 0
  .yes, [6]⟩, ⟨.leaf 2 .yes, [7]⟩, ⟨.fin 7 65535 2 7 1 false .yes, []⟩, ⟨.leaf 0 .yes, [9]⟩, ⟨.leaf 0 .yes, [10]⟩, ⟨.leaf 3 .yes, [11, 14]⟩, ⟨.leaf 0
  .hard, [12]⟩, ⟨.leaf 0 .yes, [13]⟩, ⟨.leaf 3 .yes, [11, 14]⟩, ⟨.fin 65534 65535 3 0 65535 false .yes, []⟩, ⟨.leaf 0 .yes, [16]⟩, ⟨.leaf 0 .yes,
  [17]⟩, ⟨.leaf 1 .yes, [18, 21]⟩, ⟨.leaf 0 .hard, [19]⟩, ⟨.leaf 0 .yes, [20]⟩, ⟨.leaf 1 .yes, [18, 21]⟩, ⟨.fin 65534 65535 4 1 65535 false .yes, []⟩,
  ⟨.leaf 0 .yes, [23]⟩, ⟨.leaf 0 .yes, [24]⟩, ⟨.leaf 1 .yes, [25]⟩, ⟨.fin 6 65535 5 65535 65535 true .yes, []⟩, ⟨.leaf 0 .yes, [27]⟩, ⟨.leaf 0 .yes,
  [28]⟩, ⟨.leaf 2 .yes, [29, 32, 35, 38, 41, 44, 65]⟩, ⟨.leaf 0 .hard, [30]⟩, ⟨.leaf 0 .yes, [31]⟩, ⟨.leaf 3 .yes, [29, 32, 35, 38, 41, 44, 65]⟩,
  ⟨.leaf 0 .hard, [33]⟩, ⟨.leaf 4 .yes, [34]⟩, ⟨.leaf 5 .yes, [29, 32, 35, 38, 41, 44, 65]⟩, ⟨.leaf 6 .hard, [36]⟩, ⟨.leaf 5 .yes, [37]⟩, ⟨.leaf 5
  .yes, [29, 32, 35, 38, 41, 44, 65]⟩, ⟨.leaf 7 .hard, [39]⟩, ⟨.leaf 8 .yes, [40]⟩, ⟨.leaf 5 .yes, [29, 32, 35, 38, 41, 44, 65]⟩, ⟨.leaf 7 .hard,
  [42]⟩, ⟨.leaf 9 .yes, [43]⟩, ⟨.leaf 5 .yes, [29, 32, 35, 38, 41, 44, 65]⟩, ⟨.leaf 0 .hard, [45]⟩, ⟨.leaf 0 .yes, [46]⟩, ⟨.leaf 10 .yes, [47, 50]⟩,
  ⟨.leaf 0 .yes, [48]⟩, ⟨.leaf 0 .yes, [49]⟩, ⟨.leaf 11 .yes, [29, 32, 35, 38, 41, 44, 65]⟩, ⟨.leaf 0 .yes, [51]⟩, ⟨.leaf 0 .yes, [52]⟩, ⟨.leaf 12
  .yes, [53]⟩, ⟨.leaf 0 .yes, [54]⟩, ⟨.leaf 0 .yes, [55]⟩, ⟨.leaf 13 .yes, [56]⟩, ⟨.leaf 0 .yes, [57]⟩, ⟨.leaf 0 .yes, [58]⟩, ⟨.leaf 13 .yes, [59]⟩,
  ⟨.leaf 0 .yes, [60]⟩, ⟨.leaf 0 .yes, [61]⟩, ⟨.leaf 13 .yes, [62]⟩, ⟨.leaf 0 .yes, [63]⟩, ⟨.leaf 0 .yes, [64]⟩, ⟨.leaf 13 .yes, [29, 32, 35, 38, 41,
  44, 65]⟩, ⟨.leaf 0 .yes, [66]⟩, ⟨.leaf 0 .yes, [67]⟩, ⟨.leaf 2 .yes, [68]⟩, ⟨.fin 5 65535 6 4 65535 false .yes, []⟩, ⟨.leaf 0 .yes, [70]⟩, ⟨.leaf 0
  .yes, [71]⟩, ⟨.leaf 14 .yes, [72, 75]⟩, ⟨.leaf 0 .hard, [73]⟩, ⟨.leaf 0 .yes, [74]⟩, ⟨.leaf 14 .yes, [72, 75]⟩, ⟨.fin 65534 65535 7 2 65535 false
  .yes, []⟩, ⟨.leaf 0 .yes, [77]⟩, ⟨.leaf 0 .yes, [78]⟩, ⟨.leaf 1 .yes, [79, 82, 85, 88, 91, 94, 115]⟩, ⟨.leaf 0 .hard, [80]⟩, ⟨.leaf 0 .yes, [81]⟩,
  ⟨.leaf 2 .yes, [79, 82, 85, 88, 91, 94, 115]⟩, ⟨.leaf 0 .hard, [83]⟩, ⟨.leaf 3 .yes, [84]⟩, ⟨.leaf 4 .yes, [79, 82, 85, 88, 91, 94, 115]⟩, ⟨.leaf 5
  .hard, [86]⟩, ⟨.leaf 4 .yes, [87]⟩, ⟨.leaf 4 .yes, [79, 82, 85, 88, 91, 94, 115]⟩, ⟨.leaf 6 .hard, [89]⟩, ⟨.leaf 7 .yes, [90]⟩, ⟨.leaf 4 .yes, [79,
  82, 85, 88, 91, 94, 115]⟩, ⟨.leaf 6 .hard, [92]⟩, ⟨.leaf 8 .yes, [93]⟩, ⟨.leaf 4 .yes, [79, 82, 85, 88, 91, 94, 115]⟩, ⟨.leaf 0 .hard, [95]⟩, ⟨.leaf
  0 .yes, [96]⟩, ⟨.leaf 9 .yes, [97, 100]⟩, ⟨.leaf 0 .yes, [98]⟩, ⟨.leaf 0 .yes, [99]⟩, ⟨.leaf 10 .yes, [79, 82, 85, 88, 91, 94, 115]⟩, ⟨.leaf 0 .yes,
  [101]⟩, ⟨.leaf 0 .yes, [102]⟩, ⟨.leaf 11 .yes, [103]⟩, ⟨.leaf 0 .yes, [104]⟩, ⟨.leaf 0 .yes, [105]⟩, ⟨.leaf 12 .yes, [106]⟩, ⟨.leaf 0 .yes, [107]⟩,
  ⟨.leaf 0 .yes, [108]⟩, ⟨.leaf 12 .yes, [109]⟩, ⟨.leaf 0 .yes, [110]⟩, ⟨.leaf 0 .yes, [111]⟩, ⟨.leaf 12 .yes, [112]⟩, ⟨.leaf 0 .yes, [113]⟩, ⟨.leaf 0
  .yes, [114]⟩, ⟨.leaf 12 .yes, [79, 82, 85, 88, 91, 94, 115]⟩, ⟨.leaf 0 .yes, [116]⟩, ⟨.leaf 0 .yes, [117]⟩, ⟨.leaf 1 .yes, [118]⟩, ⟨.fin 5 65535 8 4
  65535 false .yes, []⟩, ⟨.leaf 0 .yes, [120]⟩, ⟨.leaf 0 .yes, [121]⟩, ⟨.leaf 13 .yes, [122, 125]⟩, ⟨.leaf 0 .hard, [123]⟩, ⟨.leaf 0 .yes, [124]⟩,
  ⟨.leaf 13 .yes, [122, 125]⟩, ⟨.fin 65534 65535 9 3 65535 false .yes, []⟩, ⟨.leaf 0 .yes, [127]⟩, ⟨.leaf 0 .yes, [128]⟩, ⟨.leaf 1 .yes, [129]⟩, ⟨.fin
  65534 65535 10 5 65535 false .yes, []⟩, ⟨.leaf 0 .yes, [131]⟩, ⟨.leaf 0 .yes, [132]⟩, ⟨.leaf 2 .yes, [133, 136]⟩, ⟨.leaf 0 .hard, [134]⟩, ⟨.leaf 0
  .yes, [135]⟩, ⟨.leaf 2 .yes, [133, 136]⟩, ⟨.fin 65534 65535 11 4 65535 false .yes, []⟩, ⟨.leaf 0 .yes, [138]⟩, ⟨.leaf 0 .yes, [139]⟩, ⟨.leaf 1 .yes,
  [140, 143, 146, 149, 152, 155, 176]⟩, ⟨.leaf 0 .hard, [141]⟩, ⟨.leaf 0 .yes, [142]⟩, ⟨.leaf 2 .yes, [140, 143, 146, 149, 152, 155, 176]⟩, ⟨.leaf 0
  .hard, [144]⟩, ⟨.leaf 3 .yes, [145]⟩, ⟨.leaf 4 .yes, [140, 143, 146, 149, 152, 155, 176]⟩, ⟨.leaf 5 .hard, [147]⟩, ⟨.leaf 4 .yes, [148]⟩, ⟨.leaf 4
  .yes, [140, 143, 146, 149, 152, 155, 176]⟩, ⟨.leaf 6 .hard, [150]⟩, ⟨.leaf 7 .yes, [151]⟩, ⟨.leaf 4 .yes, [140, 143, 146, 149, 152, 155, 176]⟩,
  ⟨.leaf 6 .hard, [153]⟩, ⟨.leaf 8 .yes, [154]⟩, ⟨.leaf 4 .yes, [140, 143, 146, 149, 152, 155, 176]⟩, ⟨.leaf 0 .hard, [156]⟩, ⟨.leaf 0 .yes, [157]⟩,
  ⟨.leaf 9 .yes, [158, 161]⟩, ⟨.leaf 0 .yes, [159]⟩, ⟨.leaf 0 .yes, [160]⟩, ⟨.leaf 10 .yes, [140, 143, 146, 149, 152, 155, 176]⟩, ⟨.leaf 0 .yes,
  [162]⟩, ⟨.leaf 0 .yes, [163]⟩, ⟨.leaf 11 .yes, [164]⟩, ⟨.leaf 0 .yes, [165]⟩, ⟨.leaf 0 .yes, [166]⟩, ⟨.leaf 12 .yes, [167]⟩, ⟨.leaf 0 .yes, [168]⟩,
  ⟨.leaf 0 .yes, [169]⟩, ⟨.leaf 12 .yes, [170]⟩, ⟨.leaf 0 .yes, [171]⟩, ⟨.leaf 0 .yes, [172]⟩, ⟨.leaf 12 .yes, [173]⟩, ⟨.leaf 0 .yes, [174]⟩, ⟨.leaf 0
  .yes, [175]⟩, ⟨.leaf 12 .yes, [140, 143, 146, 149, 152, 155, 176]⟩, ⟨.leaf 0 .yes, [177]⟩, ⟨.leaf 0 .yes, [178]⟩, ⟨.leaf 1 .yes, [179]⟩, ⟨.fin 1
  65535 12 6 65535 false .yes, []⟩, ⟨.leaf 0 .hard, [181]⟩, ⟨.leaf 0 .yes, [182]⟩, ⟨.leaf 13 .yes, [184, 187]⟩, ⟨.leaf 65535 .hard, []⟩, ⟨.leaf 0
  .yes, [185]⟩, ⟨.leaf 0 .yes, [186]⟩, ⟨.leaf 14 .yes, [193, 203, 217]⟩, ⟨.leaf 0 .yes, [188]⟩, ⟨.leaf 0 .yes, [189]⟩, ⟨.leaf 15 .yes, [190, 193, 203,
  217]⟩, ⟨.leaf 0 .hard, [191]⟩, ⟨.leaf 0 .yes, [192]⟩, ⟨.leaf 16 .yes, [190, 193, 203, 217]⟩, ⟨.leaf 0 .hard, [194]⟩, ⟨.leaf 0 .yes, [195]⟩, ⟨.leaf
  17 .yes, [196]⟩, ⟨.leaf 0 .yes, [197]⟩, ⟨.leaf 0 .yes, [198]⟩, ⟨.leaf 16 .yes, [199, 203, 217]⟩, ⟨.leaf 0 .hard, [200]⟩, ⟨.leaf 0 .yes, [201]⟩,
  ⟨.leaf 16 .yes, [199, 203, 217]⟩, ⟨.leaf 65535 .hard, []⟩, ⟨.leaf 0 .hard, [204]⟩, ⟨.leaf 0 .yes, [205]⟩, ⟨.leaf 18 .yes, [206, 210]⟩, ⟨.leaf 0
  .hard, [207]⟩, ⟨.leaf 0 .yes, [208]⟩, ⟨.leaf 19 .yes, [210]⟩, ⟨.leaf 65535 .hard, []⟩, ⟨.leaf 0 .yes, [211]⟩, ⟨.leaf 0 .yes, [212]⟩, ⟨.leaf 16 .yes,
  [213, 217]⟩, ⟨.leaf 0 .hard, [214]⟩, ⟨.leaf 0 .yes, [215]⟩, ⟨.leaf 16 .yes, [213, 217]⟩, ⟨.leaf 65535 .hard, []⟩, ⟨.fin 2 65535 13 6 65535 false
  .yes, []⟩, ⟨.leaf 0 .yes, [219]⟩, ⟨.leaf 0 .yes, [220]⟩, ⟨.leaf 20 .yes, [221]⟩, ⟨.leaf 0 .yes, [222]⟩, ⟨.leaf 0 .yes, [223]⟩, ⟨.leaf 21 .yes,
  [224]⟩, ⟨.leaf 0 .yes, [225]⟩, ⟨.leaf 0 .yes, [226]⟩, ⟨.leaf 11 .yes, [227]⟩, ⟨.leaf 0 .yes, [228]⟩, ⟨.leaf 0 .yes, [229]⟩, ⟨.leaf 22 .yes, [245]⟩,
  ⟨.leaf 0 .yes, [231]⟩, ⟨.leaf 0 .yes, [232]⟩, ⟨.leaf 23 .yes, [233]⟩, ⟨.leaf 0 .yes, [234]⟩, ⟨.leaf 0 .yes, [235]⟩, ⟨.leaf 24 .yes, [236]⟩, ⟨.leaf 0
  .yes, [237]⟩, ⟨.leaf 0 .yes, [238]⟩, ⟨.leaf 25 .yes, [239]⟩, ⟨.leaf 0 .yes, [240]⟩, ⟨.leaf 0 .yes, [241]⟩, ⟨.leaf 26 .yes, [242]⟩, ⟨.leaf 0 .yes,
  [243]⟩, ⟨.leaf 0 .yes, [244]⟩, ⟨.leaf 22 .yes, [245]⟩, ⟨.fin 3 65535 14 6 65535 false .yes, []⟩, ⟨.leaf 0 .yes, [247]⟩, ⟨.leaf 0 .yes, [248]⟩,
  ⟨.leaf 27 .yes, [249]⟩, ⟨.leaf 0 .yes, [250]⟩, ⟨.leaf 0 .yes, [251]⟩, ⟨.leaf 11 .yes, [252]⟩, ⟨.leaf 0 .yes, [253]⟩, ⟨.leaf 0 .yes, [254]⟩, ⟨.leaf
  25 .yes, [255]⟩, ⟨.leaf 0 .yes, [256]⟩, ⟨.leaf 0 .yes, [257]⟩, ⟨.leaf 25 .yes, [258]⟩, ⟨.fin 9 65535 15 6 65535 false .yes, []⟩, ⟨.leaf 0 .yes,
  [260]⟩, ⟨.leaf 0 .yes, [261]⟩, ⟨.leaf 28 .yes, [262]⟩, ⟨.fin 4 65535 16 2 6 false .yes, []⟩, ⟨.leaf 0 .yes, [264]⟩, ⟨.leaf 0 .yes, [265]⟩, ⟨.leaf 29
  .yes, [266]⟩, ⟨.fin 7 65535 17 7 6 false .yes, []⟩, ⟨.leaf 0 .yes, [268]⟩, ⟨.leaf 0 .yes, [269]⟩, ⟨.leaf 30 .yes, [270, 273]⟩, ⟨.leaf 0 .hard,
  [271]⟩, ⟨.leaf 0 .yes, [272]⟩, ⟨.leaf 30 .yes, [270, 273]⟩, ⟨.fin 65534 65535 18 5 65535 false .yes, []⟩, ⟨.leaf 0 .yes, [275]⟩, ⟨.leaf 0 .yes,
  [276]⟩, ⟨.leaf 1 .yes, [277]⟩, ⟨.fin 6 65535 19 65535 65535 true .yes, []⟩, ⟨.leaf 0 .yes, [279]⟩, ⟨.leaf 0 .yes, [280]⟩, ⟨.leaf 2 .yes, [281]⟩,
  ⟨.fin 65534 65535 20 3 65535 false .yes, []⟩, ⟨.leaf 0 .yes, [283]⟩, ⟨.leaf 0 .yes, [284]⟩, ⟨.leaf 3 .yes, [285, 288]⟩, ⟨.leaf 0 .hard, [286]⟩,
  ⟨.leaf 0 .yes, [287]⟩, ⟨.leaf 3 .yes, [285, 288]⟩, ⟨.fin 65534 65535 21 6 65535 false .yes, []⟩, ⟨.leaf 0 .yes, [290]⟩, ⟨.leaf 0 .yes, [291]⟩,
  ⟨.leaf 1 .yes, [292]⟩, ⟨.fin 8 65535 22 65535 65535 true .yes, []⟩, ⟨.leaf 0 .yes, [294]⟩, ⟨.leaf 0 .yes, [295]⟩, ⟨.leaf 2 .yes, [296, 299, 302,
  305, 308, 311, 332]⟩, ⟨.leaf 0 .hard, [297]⟩, ⟨.leaf 0 .yes, [298]⟩, ⟨.leaf 3 .yes, [296, 299, 302, 305, 308, 311, 332]⟩, ⟨.leaf 0 .hard, [300]⟩,
  ⟨.leaf 4 .yes, [301]⟩, ⟨.leaf 5 .yes, [296, 299, 302, 305, 308, 311, 332]⟩, ⟨.leaf 6 .hard, [303]⟩, ⟨.leaf 5 .yes, [304]⟩, ⟨.leaf 5 .yes, [296, 299,
  302, 305, 308, 311, 332]⟩, ⟨.leaf 7 .hard, [306]⟩, ⟨.leaf 8 .yes, [307]⟩, ⟨.leaf 5 .yes, [296, 299, 302, 305, 308, 311, 332]⟩, ⟨.leaf 7 .hard,
  [309]⟩, ⟨.leaf 9 .yes, [310]⟩, ⟨.leaf 5 .yes, [296, 299, 302, 305, 308, 311, 332]⟩, ⟨.leaf 0 .hard, [312]⟩, ⟨.leaf 0 .yes, [313]⟩, ⟨.leaf 10 .yes,
  [314, 317]⟩, ⟨.leaf 0 .yes, [315]⟩, ⟨.leaf 0 .yes, [316]⟩, ⟨.leaf 11 .yes, [296, 299, 302, 305, 308, 311, 332]⟩, ⟨.leaf 0 .yes, [318]⟩, ⟨.leaf 0
  .yes, [319]⟩, ⟨.leaf 12 .yes, [320]⟩, ⟨.leaf 0 .yes, [321]⟩, ⟨.leaf 0 .yes, [322]⟩, ⟨.leaf 13 .yes, [323]⟩, ⟨.leaf 0 .yes, [324]⟩, ⟨.leaf 0 .yes,
  [325]⟩, ⟨.leaf 13 .yes, [326]⟩, ⟨.leaf 0 .yes, [327]⟩, ⟨.leaf 0 .yes, [328]⟩, ⟨.leaf 13 .yes, [329]⟩, ⟨.leaf 0 .yes, [330]⟩, ⟨.leaf 0 .yes, [331]⟩,
  ⟨.leaf 13 .yes, [296, 299, 302, 305, 308, 311, 332]⟩, ⟨.leaf 0 .yes, [333]⟩, ⟨.leaf 0 .yes, [334]⟩, ⟨.leaf 2 .yes, [335]⟩, ⟨.fin 1 65535 23 8 65535
  false .yes, []⟩, ⟨.leaf 0 .hard, [337]⟩, ⟨.leaf 0 .yes, [338]⟩, ⟨.leaf 14 .yes, [340, 343]⟩, ⟨.leaf 65535 .hard, []⟩, ⟨.leaf 0 .yes, [341]⟩, ⟨.leaf
  0 .yes, [342]⟩, ⟨.leaf 15 .yes, [349, 359, 373]⟩, ⟨.leaf 0 .yes, [344]⟩, ⟨.leaf 0 .yes, [345]⟩, ⟨.leaf 16 .yes, [346, 349, 359, 373]⟩, ⟨.leaf 0
  .hard, [347]⟩, ⟨.leaf 0 .yes, [348]⟩, ⟨.leaf 17 .yes, [346, 349, 359, 373]⟩, ⟨.leaf 0 .hard, [350]⟩, ⟨.leaf 0 .yes, [351]⟩, ⟨.leaf 18 .yes, [352]⟩,
  ⟨.leaf 0 .yes, [353]⟩, ⟨.leaf 0 .yes, [354]⟩, ⟨.leaf 17 .yes, [355, 359, 373]⟩, ⟨.leaf 0 .hard, [356]⟩, ⟨.leaf 0 .yes, [357]⟩, ⟨.leaf 17 .yes, [355,
  359, 373]⟩, ⟨.leaf 65535 .hard, []⟩, ⟨.leaf 0 .hard, [360]⟩, ⟨.leaf 0 .yes, [361]⟩, ⟨.leaf 19 .yes, [362, 366]⟩, ⟨.leaf 0 .hard, [363]⟩, ⟨.leaf 0
  .yes, [364]⟩, ⟨.leaf 20 .yes, [366]⟩, ⟨.leaf 65535 .hard, []⟩, ⟨.leaf 0 .yes, [367]⟩, ⟨.leaf 0 .yes, [368]⟩, ⟨.leaf 17 .yes, [369, 373]⟩, ⟨.leaf 0
  .hard, [370]⟩, ⟨.leaf 0 .yes, [371]⟩, ⟨.leaf 17 .yes, [369, 373]⟩, ⟨.leaf 65535 .hard, []⟩, ⟨.fin 2 65535 24 8 65535 false .yes, []⟩, ⟨.leaf 0 .yes,
  [375]⟩, ⟨.leaf 0 .yes, [376]⟩, ⟨.leaf 21 .yes, [377]⟩, ⟨.leaf 0 .yes, [378]⟩, ⟨.leaf 0 .yes, [379]⟩, ⟨.leaf 22 .yes, [380]⟩, ⟨.leaf 0 .yes, [381]⟩,
  ⟨.leaf 0 .yes, [382]⟩, ⟨.leaf 12 .yes, [383]⟩, ⟨.leaf 0 .yes, [384]⟩, ⟨.leaf 0 .yes, [385]⟩, ⟨.leaf 23 .yes, [401]⟩, ⟨.leaf 0 .yes, [387]⟩, ⟨.leaf 0
  .yes, [388]⟩, ⟨.leaf 24 .yes, [389]⟩, ⟨.leaf 0 .yes, [390]⟩, ⟨.leaf 0 .yes, [391]⟩, ⟨.leaf 25 .yes, [392]⟩, ⟨.leaf 0 .yes, [393]⟩, ⟨.leaf 0 .yes,
  [394]⟩, ⟨.leaf 26 .yes, [395]⟩, ⟨.leaf 0 .yes, [396]⟩, ⟨.leaf 0 .yes, [397]⟩, ⟨.leaf 27 .yes, [398]⟩, ⟨.leaf 0 .yes, [399]⟩, ⟨.leaf 0 .yes, [400]⟩,
  ⟨.leaf 23 .yes, [401]⟩, ⟨.fin 3 65535 25 8 65535 false .yes, []⟩, ⟨.leaf 0 .yes, [403]⟩, ⟨.leaf 0 .yes, [404]⟩, ⟨.leaf 28 .yes, [405]⟩, ⟨.leaf 0
  .yes, [406]⟩, ⟨.leaf 0 .yes, [407]⟩, ⟨.leaf 12 .yes, [408]⟩, ⟨.leaf 0 .yes, [409]⟩, ⟨.leaf 0 .yes, [410]⟩, ⟨.leaf 26 .yes, [411]⟩, ⟨.leaf 0 .yes,
  [412]⟩, ⟨.leaf 0 .yes, [413]⟩, ⟨.leaf 26 .yes, [414]⟩, ⟨.fin 9 65535 26 8 65535 false .yes, []⟩, ⟨.leaf 0 .yes, [416]⟩, ⟨.leaf 0 .yes, [417]⟩,
  ⟨.leaf 29 .yes, [418]⟩, ⟨.fin 4 65535 27 2 8 false .yes, []⟩, ⟨.leaf 0 .yes, [420]⟩, ⟨.leaf 0 .yes, [421]⟩, ⟨.leaf 30 .yes, [422]⟩, ⟨.fin 7 65535 28
  7 8 false .yes, []⟩, ⟨.leaf 0 .yes, [424]⟩, ⟨.leaf 0 .yes, [425]⟩, ⟨.leaf 31 .yes, [426, 429]⟩, ⟨.leaf 0 .hard, [427]⟩, ⟨.leaf 0 .yes, [428]⟩,
  ⟨.leaf 31 .yes, [426, 429]⟩, ⟨.fin 65534 65535 29 7 65535 false .yes, []⟩, ⟨.leaf 0 .yes, [431]⟩, ⟨.leaf 0 .yes, [432]⟩, ⟨.leaf 1 .yes, [433]⟩,
  ⟨.fin 8 65535 30 65535 65535 true .yes, []⟩, ⟨.leaf 0 .yes, [435]⟩, ⟨.leaf 0 .yes, [436]⟩, ⟨.leaf 2 .yes, [437]⟩, ⟨.fin 65534 65535 31 9 65535 false
  .yes, []⟩, ⟨.leaf 0 .yes, [439]⟩, ⟨.leaf 0 .yes, [440]⟩, ⟨.leaf 3 .yes, [441, 444]⟩, ⟨.leaf 0 .hard, [442]⟩, ⟨.leaf 0 .yes, [443]⟩, ⟨.leaf 3 .yes,
  [441, 444]⟩, ⟨.fin 65534 65535 32 8 65535 false .yes, []⟩]

theorem part8 : (Slim.loop Ex.tr24 id false false [stored.states.getD 8 []] [36] (heap7, [1, 2, 3, 4, 5, 6, 7, 8, 9, 10, 11, 12, 13, 14, 15, 16, 17, 18, 19, 20, 21, 22, 23, 24, 25, 26, 27, 28, 29], 29)).toOption =
    some (heap8, [1, 2, 3, 4, 5, 6, 7, 8, 9, 10, 11, 12, 13, 14, 15, 16, 17, 18, 19, 20, 21, 22, 23, 24, 25, 26, 27, 28, 29, 30, 31, 32], 32) := by decide +kernel

def heapm9 : Heap := [⟨.leaf 0 .yes, [1]⟩, ⟨.leaf 0 .yes, [2]⟩, ⟨.leaf 1 .yes, [3]⟩, ⟨.fin 4 65535 1 2 1 false .yes, []⟩, ⟨.leaf 0 .yes, [5]⟩, ⟨.leaf
  0 .yes, [6]⟩, ⟨.leaf 2 .yes, [7]⟩, ⟨.fin 7 65535 2 7 1 false .yes, []⟩, ⟨.leaf 0 .yes, [9]⟩, ⟨.leaf 0 .yes, [10]⟩, ⟨.leaf 3 .yes, [11, 14]⟩, ⟨.leaf
  0 .hard, [12]⟩, ⟨.leaf 0 .yes, [13]⟩, ⟨.leaf 3 .yes, [11, 14]⟩, ⟨.fin 65534 65535 3 0 65535 false .yes, []⟩, ⟨.leaf 0 .yes, [16]⟩, ⟨.leaf 0 .yes,
  [17]⟩, ⟨.leaf 1 .yes, [18, 21]⟩, ⟨.leaf 0 .hard, [19]⟩, ⟨.leaf 0 .yes, [20]⟩, ⟨.leaf 1 .yes, [18, 21]⟩, ⟨.fin 65534 65535 4 1 65535 false .yes, []⟩,
  ⟨.leaf 0 .yes, [23]⟩, ⟨.leaf 0 .yes, [24]⟩, ⟨.leaf 1 .yes, [25]⟩, ⟨.fin 6 65535 5 65535 65535 true .yes, []⟩, ⟨.leaf 0 .yes, [27]⟩, ⟨.leaf 0 .yes,
  [28]⟩, ⟨.leaf 2 .yes, [29, 32, 35, 38, 41, 44, 65]⟩, ⟨.leaf 0 .hard, [30]⟩, ⟨.leaf 0 .yes, [31]⟩, ⟨.leaf 3 .yes, [29, 32, 35, 38, 41, 44, 65]⟩,
  ⟨.leaf 0 .hard, [33]⟩, ⟨.leaf 4 .yes, [34]⟩, ⟨.leaf 5 .yes, [29, 32, 35, 38, 41, 44, 65]⟩, ⟨.leaf 6 .hard, [36]⟩, ⟨.leaf 5 .yes, [37]⟩, ⟨.leaf 5
  .yes, [29, 32, 35, 38, 41, 44, 65]⟩, ⟨.leaf 7 .hard, [39]⟩, ⟨.leaf 8 .yes, [40]⟩, ⟨.leaf 5 .yes, [29, 32, 35, 38, 41, 44, 65]⟩, ⟨.leaf 7 .hard,
  [42]⟩, ⟨.leaf 9 .yes, [43]⟩, ⟨.leaf 5 .yes, [29, 32, 35, 38, 41, 44, 65]⟩, ⟨.leaf 0 .hard, [45]⟩, ⟨.leaf 0 .yes, [46]⟩, ⟨.leaf 10 .yes, [47, 50]⟩,
  ⟨.leaf 0 .yes, [48]⟩, ⟨.leaf 0 .yes, [49]⟩, ⟨.leaf 11 .yes, [29, 32, 35, 38, 41, 44, 65]⟩, ⟨.leaf 0 .yes, [51]⟩, ⟨.leaf 0 .yes, [52]⟩, ⟨.leaf 12
  .yes, [53]⟩, ⟨.leaf 0 .yes, [54]⟩, ⟨.leaf 0 .yes, [55]⟩, ⟨.leaf 13 .yes, [56]⟩, ⟨.leaf 0 .yes, [57]⟩, ⟨.leaf 0 .yes, [58]⟩, ⟨.leaf 13 .yes, [59]⟩,
  ⟨.leaf 0 .yes, [60]⟩, ⟨.leaf 0 .yes, [61]⟩, ⟨.leaf 13 .yes, [62]⟩, ⟨.leaf 0 .yes, [63]⟩, ⟨.leaf 0 .yes, [64]⟩, ⟨.leaf 13 .yes, [29, 32, 35, 38, 41,
  44, 65]⟩, ⟨.leaf 0 .yes, [66]⟩, ⟨.leaf 0 .yes, [67]⟩, ⟨.leaf 2 .yes, [68]⟩, ⟨.fin 5 65535 6 4 65535 false .yes, []⟩, ⟨.leaf 0 .yes, [70]⟩, ⟨.leaf 0
  .yes, [71]⟩, ⟨.leaf 14 .yes, [72, 75]⟩, ⟨.leaf 0 .hard, [73]⟩, ⟨.leaf 0 .yes, [74]⟩, ⟨.leaf 14 .yes, [72, 75]⟩, ⟨.fin 65534 65535 7 2 65535 false
  .yes, []⟩, ⟨.leaf 0 .yes, [77]⟩, ⟨.leaf 0 .yes, [78]⟩, ⟨.leaf 1 .yes, [79, 82, 85, 88, 91, 94, 115]⟩, ⟨.leaf 0 .hard, [80]⟩, ⟨.leaf 0 .yes, [81]⟩,
  ⟨.leaf 2 .yes, [79, 82, 85, 88, 91, 94, 115]⟩, ⟨.leaf 0 .hard, [83]⟩, ⟨.leaf 3 .yes, [84]⟩, ⟨.leaf 4 .yes, [79, 82, 85, 88, 91, 94, 115]⟩, ⟨.leaf 5
  .hard, [86]⟩, ⟨.leaf 4 .yes, [87]⟩, ⟨.leaf 4 .yes, [79, 82, 85, 88, 91, 94, 115]⟩, ⟨.leaf 6 .hard, [89]⟩, ⟨.leaf 7 .yes, [90]⟩, ⟨.leaf 4 .yes, [79,
  82, 85, 88, 91, 94, 115]⟩, ⟨.leaf 6 .hard, [92]⟩, ⟨.leaf 8 .yes, [93]⟩, ⟨.leaf 4 .yes, [79, 82, 85, 88, 91, 94, 115]⟩, ⟨.leaf 0 .hard, [95]⟩, ⟨.leaf
  0 .yes, [96]⟩, ⟨.leaf 9 .yes, [97, 100]⟩, ⟨.leaf 0 .yes, [98]⟩, ⟨.leaf 0 .yes, [99]⟩, ⟨.leaf 10 .yes, [79, 82, 85, 88, 91, 94, 115]⟩, ⟨.leaf 0 .yes,
  [101]⟩, ⟨.leaf 0 .yes, [102]⟩, ⟨.leaf 11 .yes, [103]⟩, ⟨.leaf 0 .yes, [104]⟩, ⟨.leaf 0 .yes, [105]⟩, ⟨.leaf 12 .yes, [106]⟩, ⟨.leaf 0 .yes, [107]⟩,
  ⟨.leaf 0 .yes, [108]⟩, ⟨.leaf 12 .yes, [109]⟩, ⟨.leaf 0 .yes, [110]⟩, ⟨.leaf 0 .yes, [111]⟩, ⟨.leaf 12 .yes, [112]⟩, ⟨.leaf 0 .yes, [113]⟩, ⟨.leaf 0
  .yes, [114]⟩, ⟨.leaf 12 .yes, [79, 82, 85, 88, 91, 94, 115]⟩, ⟨.leaf 0 .yes, [116]⟩, ⟨.leaf 0 .yes, [117]⟩, ⟨.leaf 1 .yes, [118]⟩, ⟨.fin 5 65535 8 4
  65535 false .yes, []⟩, ⟨.leaf 0 .yes, [120]⟩, ⟨.leaf 0 .yes, [121]⟩, ⟨.leaf 13 .yes, [122, 125]⟩, ⟨.leaf 0 .hard, [123]⟩, ⟨.leaf 0 .yes, [124]⟩,
  ⟨.leaf 13 .yes, [122, 125]⟩, ⟨.fin 65534 65535 9 3 65535 false .yes, []⟩, ⟨.leaf 0 .yes, [127]⟩, ⟨.leaf 0 .yes, [128]⟩, ⟨.leaf 1 .yes, [129]⟩, ⟨.fin
  65534 65535 10 5 65535 false .yes, []⟩, ⟨.leaf 0 .yes, [131]⟩, ⟨.leaf 0 .yes, [132]⟩, ⟨.leaf 2 .yes, [133, 136]⟩, ⟨.leaf 0 .hard, [134]⟩, ⟨.leaf 0
  .yes, [135]⟩, ⟨.leaf 2 .yes, [133, 136]⟩, ⟨.fin 65534 65535 11 4 65535 false .yes, []⟩, ⟨.leaf 0 .yes, [138]⟩, ⟨.leaf 0 .yes, [139]⟩, ⟨.leaf 1 .yes,
  [140, 143, 146, 149, 152, 155, 176]⟩, ⟨.leaf 0 .hard, [141]⟩, ⟨.leaf 0 .yes, [142]⟩, ⟨.leaf 2 .yes, [140, 143, 146, 149, 152, 155, 176]⟩, ⟨.leaf 0
  .hard, [144]⟩, ⟨.leaf 3 .yes, [145]⟩, ⟨.leaf 4 .yes, [140, 143, 146, 149, 152, 155, 176]⟩, ⟨.leaf 5 .hard, [147]⟩, ⟨.leaf 4 .yes, [148]⟩, ⟨.leaf 4
  .yes, [140, 143, 146, 149, 152, 155, 176]⟩, ⟨.leaf 6 .hard, [150]⟩, ⟨.leaf 7 .yes, [151]⟩, ⟨.leaf 4 .yes, [140, 143, 146, 149, 152, 155, 176]⟩,
  ⟨.leaf 6 .hard, [153]⟩, ⟨.leaf 8 .yes, [154]⟩, ⟨.leaf 4 .yes, [140, 143, 146, 149, 152, 155, 176]⟩, ⟨.leaf 0 .hard, [156]⟩, ⟨.leaf 0 .yes, [157]⟩,
  ⟨.leaf 9 .yes, [158, 161]⟩, ⟨.leaf 0 .yes, [159]⟩, ⟨.leaf 0 .yes, [160]⟩, ⟨.leaf 10 .yes, [140, 143, 146, 149, 152, 155, 176]⟩, ⟨.leaf 0 .yes,
  [162]⟩, ⟨.leaf 0 .yes, [163]⟩, ⟨.leaf 11 .yes, [164]⟩, ⟨.leaf 0 .yes, [165]⟩, ⟨.leaf 0 .yes, [166]⟩, ⟨.leaf 12 .yes, [167]⟩, ⟨.leaf 0 .yes, [168]⟩,
  ⟨.leaf 0 .yes, [169]⟩, ⟨.leaf 12 .yes, [170]⟩, ⟨.leaf 0 .yes, [171]⟩, ⟨.leaf 0 .yes, [172]⟩, ⟨.leaf 12 .yes, [173]⟩, ⟨.leaf 0 .yes, [174]⟩, ⟨.leaf 0
  .yes, [175]⟩, ⟨.leaf 12 .yes, [140, 143, 146, 149, 152, 155, 176]⟩, ⟨.leaf 0 .yes, [177]⟩, ⟨.leaf 0 .yes, [178]⟩, ⟨.leaf 1 .yes, [179]⟩, ⟨.fin 1
  65535 12 6 65535 false .yes, []⟩, ⟨.leaf 0 .hard, [181]⟩, ⟨.leaf 0 .yes, [182]⟩, ⟨.leaf 13 .yes, [184, 187]⟩, ⟨.leaf 65535 .hard, []⟩, ⟨.leaf 0
  .yes, [185]⟩, ⟨.leaf 0 .yes, [186]⟩, ⟨.leaf 14 .yes, [193, 203, 217]⟩, ⟨.leaf 0 .yes, [188]⟩, ⟨.leaf 0 .yes, [189]⟩, ⟨.leaf 15 .yes, [190, 193, 203,
  217]⟩, ⟨.leaf 0 .hard, [191]⟩, ⟨.leaf 0 .yes, [192]⟩, ⟨.leaf 16 .yes, [190, 193, 203, 217]⟩, ⟨.leaf 0 .hard, [194]⟩, ⟨.leaf 0 .yes, [195]⟩, ⟨.leaf
  17 .yes, [196]⟩, ⟨.leaf 0 .yes, [197]⟩, ⟨.leaf 0 .yes, [198]⟩, ⟨.leaf 16 .yes, [199, 203, 217]⟩, ⟨.leaf 0 .hard, [200]⟩, ⟨.leaf 0 .yes, [201]⟩,
  ⟨.leaf 16 .yes, [199, 203, 217]⟩, ⟨.leaf 65535 .hard, []⟩, ⟨.leaf 0 .hard, [204]⟩, ⟨.leaf 0 .yes, [205]⟩, ⟨.leaf 18 .yes, [206, 210]⟩, ⟨.leaf 0
  .hard, [207]⟩, ⟨.leaf 0 .yes, [208]⟩, ⟨.leaf 19 .yes, [210]⟩, ⟨.leaf 65535 .hard, []⟩, ⟨.leaf 0 .yes, [211]⟩, ⟨.leaf 0 .yes, [212]⟩, ⟨.leaf 16 .yes,
  [213, 217]⟩, ⟨.leaf 0 .hard, [214]⟩, ⟨.leaf 0 .yes, [215]⟩, ⟨.leaf 16 .yes, [213, 217]⟩, ⟨.leaf 65535 .hard, []⟩, ⟨.fin 2 65535 13 6 65535 false
  .yes, []⟩, ⟨.leaf 0 .yes, [219]⟩, ⟨.leaf 0 .yes, [220]⟩, ⟨.leaf 20 .yes, [221]⟩, ⟨.leaf 0 .yes, [222]⟩, ⟨.leaf 0 .yes, [223]⟩, ⟨.leaf 21 .yes,
  [224]⟩, ⟨.leaf 0 .yes, [225]⟩, ⟨.leaf 0 .yes, [226]⟩, ⟨.leaf 11 .yes, [227]⟩, ⟨.leaf 0 .yes, [228]⟩, ⟨.leaf 0 .yes, [229]⟩, ⟨.leaf 22 .yes, [245]⟩,
  ⟨.leaf 0 .yes, [231]⟩, ⟨.leaf 0 .yes, [232]⟩, ⟨.leaf 23 .yes, [233]⟩, ⟨.leaf 0 .yes, [234]⟩, ⟨.leaf 0 .yes, [235]⟩, ⟨.leaf 24 .yes, [236]⟩, ⟨.leaf 0
  .yes, [237]⟩, ⟨.leaf 0 .yes, [238]⟩, ⟨.leaf 25 .yes, [239]⟩, ⟨.leaf 0 .yes, [240]⟩, ⟨.leaf 0 .yes, [241]⟩, ⟨.leaf 26 .yes, [242]⟩, ⟨.leaf 0 .yes,
  [243]⟩, ⟨.leaf 0 .yes, [244]⟩, ⟨.leaf 22 .yes, [245]⟩, ⟨.fin 3 65535 14 6 65535 false .yes, []⟩, ⟨.leaf 0 .yes, [247]⟩, ⟨.leaf 0 .yes, [248]⟩,
  ⟨.leaf 27 .yes, [249]⟩, ⟨.leaf 0 .yes, [250]⟩, ⟨.leaf 0 .yes, [251]⟩, ⟨.leaf 11 .yes, [252]⟩, ⟨.leaf 0 .yes, [253]⟩, ⟨.leaf 0 .yes, [254]⟩, ⟨.leaf
  25 .yes, [255]⟩, ⟨.leaf 0 .yes, [256]⟩, ⟨.leaf 0 .yes, [257]⟩, ⟨.leaf 25 .yes, [258]⟩, ⟨.fin 9 65535 15 6 65535 false .yes, []⟩, ⟨.leaf 0 .yes,
  [260]⟩, ⟨.leaf 0 .yes, [261]⟩, ⟨.leaf 28 .yes, [262]⟩, ⟨.fin 4 65535 16 2 6 false .yes, []⟩, ⟨.leaf 0 .yes, [264]⟩, ⟨.leaf 0 .yes, [265]⟩, ⟨.leaf 29
  .yes, [266]⟩, ⟨.fin 7 65535 17 7 6 false .yes, []⟩, ⟨.leaf 0 .yes, [268]⟩, ⟨.leaf 0 .yes, [269]⟩, ⟨.leaf 30 .yes, [270, 273]⟩, ⟨.leaf 0 .hard,
  [271]⟩, ⟨.leaf 0 .yes, [272]⟩, ⟨.leaf 30 .yes, [270, 273]⟩, ⟨.fin 65534 65535 18 5 65535 false .yes, []⟩, ⟨.leaf 0 .yes, [275]⟩, ⟨.leaf 0 .yes,
  [276]⟩, ⟨.leaf 1 .yes, [277]⟩, ⟨.fin 6 65535 19 65535 65535 true .yes, []⟩, ⟨.leaf 0 .yes, [279]⟩, ⟨.leaf 0 .yes, [280]⟩, ⟨.leaf 2 .yes, [281]⟩,
  ⟨.fin 65534 65535 20 3 65535 false .yes, []⟩, ⟨.leaf 0 .yes, [283]⟩, ⟨.leaf 0 .yes, [284]⟩, ⟨.leaf 3 .yes, [285, 288]⟩, ⟨.leaf 0 .hard, [286]⟩,
  ⟨.leaf 0 .yes, [287]⟩, ⟨.leaf 3 .yes, [285, 288]⟩, ⟨.fin 65534 65535 21 6 65535 false .yes, []⟩, ⟨.leaf 0 .yes, [290]⟩, ⟨.leaf 0 .yes, [291]⟩,
  ⟨.leaf 1 .yes, [292]⟩, ⟨.fin 8 65535 22 65535 65535 true .yes, []⟩, ⟨.leaf 0 .yes, [294]⟩, ⟨.leaf 0 .yes, [295]⟩, ⟨.leaf 2 .yes, [296, 299, 302,
  305, 308, 311, 332]⟩, ⟨.leaf 0 .hard, [297]⟩, ⟨.leaf 0 .yes, [298]⟩, ⟨.leaf 3 .yes, [296, 299, 302, 305, 308, 311, 332]⟩, ⟨.leaf 0 .hard, [300]⟩,
  ⟨.leaf 4 .yes, [301]⟩, ⟨.leaf 5 .yes, [296, 299, 302, 305, 308, 311, 332]⟩, ⟨.leaf 6 .hard, [303]⟩, ⟨.leaf 5 .yes, [304]⟩, ⟨.leaf 5 .yes, [296, 299,
  302, 305, 308, 311, 332]⟩, ⟨.leaf 7 .hard, [306]⟩, ⟨.leaf 8 .yes, [307]⟩, ⟨.leaf 5 .yes, [296, 299, 302, 305, 308, 311, 332]⟩, ⟨.leaf 7 .hard,
  [309]⟩, ⟨.leaf 9 .yes, [310]⟩, ⟨.leaf 5 .yes, [296, 299, 302, 305, 308, 311, 332]⟩, ⟨.leaf 0 .hard, [312]⟩, ⟨.leaf 0 .yes, [313]⟩, ⟨.leaf 10 .yes,
  [314, 317]⟩, ⟨.leaf 0 .yes, [315]⟩, ⟨.leaf 0 .yes, [316]⟩, ⟨.leaf 11 .yes, [296, 299, 302, 305, 308, 311, 332]⟩, ⟨.leaf 0 .yes, [318]⟩, ⟨.leaf 0
  .yes, [319]⟩, ⟨.leaf 12 .yes, [320]⟩, ⟨.leaf 0 .yes, [321]⟩, ⟨.leaf 0 .yes, [322]⟩, ⟨.leaf 13 .yes, [323]⟩, ⟨.leaf 0 .yes, [324]⟩, ⟨.leaf 0 .yes,
  [325]⟩, ⟨.leaf 13 .yes, [326]⟩, ⟨.leaf 0 .yes, [327]⟩, ⟨.leaf 0 .yes, [328]⟩, ⟨.leaf 13 .yes, [329]⟩, ⟨.leaf 0 .yes, [330]⟩, ⟨.leaf 0 .yes, [331]⟩,
  ⟨.leaf 13 .yes, [296, 299, 302, 305, 308, 311, 332]⟩, ⟨.leaf 0 .yes, [333]⟩, ⟨.leaf 0 .yes, [334]⟩, ⟨.leaf 2 .yes, [335]⟩, ⟨.fin 1 65535 23 8 65535
  false .yes, []⟩, ⟨.leaf 0 .hard, [337]⟩, ⟨.leaf 0 .yes, [338]⟩, ⟨.leaf 14 .yes, [340, 343]⟩, ⟨.leaf 65535 .hard, []⟩, ⟨.leaf 0 .yes, [341]⟩, ⟨.leaf
  0 .yes, [342]⟩, ⟨.leaf 15 .yes, [349, 359, 373]⟩, ⟨.leaf 0 .yes, [344]⟩, ⟨.leaf 0 .yes, [345]⟩, ⟨.leaf 16 .yes, [346, 349, 359, 373]⟩, ⟨.leaf 0
  .hard, [347]⟩, ⟨.leaf 0 .yes, [348]⟩, ⟨.leaf 17 .yes, [346, 349, 359, 373]⟩, ⟨.leaf 0 .hard, [350]⟩, ⟨.leaf 0 .yes, [351]⟩, ⟨.leaf 18 .yes, [352]⟩,
  ⟨.leaf 0 .yes, [353]⟩, ⟨.leaf 0 .yes, [354]⟩, ⟨.leaf 17 .yes, [355, 359, 373]⟩, ⟨.leaf 0 .hard, [356]⟩, ⟨.leaf 0 .yes, [357]⟩, ⟨.leaf 17 .yes, [355,
  359, 373]⟩, ⟨.leaf 65535 .hard, []⟩, ⟨.leaf 0 .hard, [360]⟩, ⟨.leaf 0 .yes, [361]⟩, ⟨.leaf 19 .yes, [362, 366]⟩, ⟨.leaf 0 .hard, [363]⟩, ⟨.leaf 0
  .yes, [364]⟩, ⟨.leaf 20 .yes, [366]⟩, ⟨.leaf 65535 .hard, []⟩, ⟨.leaf 0 .yes, [367]⟩, ⟨.leaf 0 .yes, [368]⟩, ⟨.leaf 17 .yes, [369, 373]⟩, ⟨.leaf 0
  .hard, [370]⟩, ⟨.leaf 0 .yes, [371]⟩, ⟨.leaf 17 .yes, [369, 373]⟩, ⟨.leaf 65535 .hard, []⟩, ⟨.fin 2 65535 24 8 65535 false .yes, []⟩, ⟨.leaf 0 .yes,
  [375]⟩, ⟨.leaf 0 .yes, [376]⟩, ⟨.leaf 21 .yes, [377]⟩, ⟨.leaf 0 .yes, [378]⟩, ⟨.leaf 0 .yes, [379]⟩, ⟨.leaf 22 .yes, [380]⟩, ⟨.leaf 0 .yes, [381]⟩,
  ⟨.leaf 0 .yes, [382]⟩, ⟨.leaf 12 .yes, [383]⟩, ⟨.leaf 0 .yes, [384]⟩, ⟨.leaf 0 .yes, [385]⟩, ⟨.leaf 23 .yes, [401]⟩, ⟨.leaf 0 .yes, [387]⟩, ⟨.leaf 0
  .yes, [388]⟩, ⟨.leaf 24 .yes, [389]⟩, ⟨.leaf 0 .yes, [390]⟩, ⟨.leaf 0 .yes, [391]⟩, ⟨.leaf 25 .yes, [392]⟩, ⟨.leaf 0 .yes, [393]⟩, ⟨.leaf 0 .yes,
  [394]⟩, ⟨.leaf 26 .yes, [395]⟩, ⟨.leaf 0 .yes, [396]⟩, ⟨.leaf 0 .yes, [397]⟩, ⟨.leaf 27 .yes, [398]⟩, ⟨.leaf 0 .yes, [399]⟩, ⟨.leaf 0 .yes, [400]⟩,
  ⟨.leaf 23 .yes, [401]⟩, ⟨.fin 3 65535 25 8 65535 false .yes, []⟩, ⟨.leaf 0 .yes, [403]⟩, ⟨.leaf 0 .yes, [404]⟩, ⟨.leaf 28 .yes, [405]⟩, ⟨.leaf 0
  .yes, [406]⟩, ⟨.leaf 0 .yes, [407]⟩, ⟨.leaf 12 .yes, [408]⟩, ⟨.leaf 0 .yes, [409]⟩, ⟨.leaf 0 .yes, [410]⟩, ⟨.leaf 26 .yes, [411]⟩, ⟨.leaf 0 .yes,
  [412]⟩, ⟨.leaf 0 .yes, [413]⟩, ⟨.leaf 26 .yes, [414]⟩, ⟨.fin 9 65535 26 8 65535 false .yes, []⟩, ⟨.leaf 0 .yes, [416]⟩, ⟨.leaf 0 .yes, [417]⟩,
  ⟨.leaf 29 .yes, [418]⟩, ⟨.fin 4 65535 27 2 8 false .yes, []⟩, ⟨.leaf 0 .yes, [420]⟩, ⟨.leaf 0 .yes, [421]⟩, ⟨.leaf 30 .yes, [422]⟩, ⟨.fin 7 65535 28
  7 8 false .yes, []⟩, ⟨.leaf 0 .yes, [424]⟩, ⟨.leaf 0 .yes, [425]⟩, ⟨.leaf 31 .yes, [426, 429]⟩, ⟨.leaf 0 .hard, [427]⟩, ⟨.leaf 0 .yes, [428]⟩,
  ⟨.leaf 31 .yes, [426, 429]⟩, ⟨.fin 65534 65535 29 7 65535 false .yes, []⟩, ⟨.leaf 0 .yes, [431]⟩, ⟨.leaf 0 .yes, [432]⟩, ⟨.leaf 1 .yes, [433]⟩,
  ⟨.fin 8 65535 30 65535 65535 true .yes, []⟩, ⟨.leaf 0 .yes, [435]⟩, ⟨.leaf 0 .yes, [436]⟩, ⟨.leaf 2 .yes, [437]⟩, ⟨.fin 65534 65535 31 9 65535 false
  .yes, []⟩, ⟨.leaf 0 .yes, [439]⟩, ⟨.leaf 0 .yes, [440]⟩, ⟨.leaf 3 .yes, [441, 444]⟩, ⟨.leaf 0 .hard, [442]⟩, ⟨.leaf 0 .yes, [443]⟩, ⟨.leaf 3 .yes,
  [441, 444]⟩, ⟨.fin 65534 65535 32 8 65535 false .yes, []⟩, ⟨.leaf 0 .yes, [446]⟩, ⟨.leaf 0 .yes, [447]⟩, ⟨.leaf 1 .yes, [448, 451, 454, 457, 460,
  463, 484]⟩, ⟨.leaf 0 .hard, [449]⟩, ⟨.leaf 0 .yes, [450]⟩, ⟨.leaf 2 .yes, [448, 451, 454, 457, 460, 463, 484]⟩, ⟨.leaf 0 .hard, [452]⟩, ⟨.leaf 3
  .yes, [453]⟩, ⟨.leaf 4 .yes, [448, 451, 454, 457, 460, 463, 484]⟩, ⟨.leaf 5 .hard, [455]⟩, ⟨.leaf 4 .yes, [456]⟩, ⟨.leaf 4 .yes, [448, 451, 454,
  457, 460, 463, 484]⟩, ⟨.leaf 6 .hard, [458]⟩, ⟨.leaf 7 .yes, [459]⟩, ⟨.leaf 4 .yes, [448, 451, 454, 457, 460, 463, 484]⟩, ⟨.leaf 6 .hard, [461]⟩,
  ⟨.leaf 8 .yes, [462]⟩, ⟨.leaf 4 .yes, [448, 451, 454, 457, 460, 463, 484]⟩, ⟨.leaf 0 .hard, [464]⟩, ⟨.leaf 0 .yes, [465]⟩, ⟨.leaf 9 .yes, [466,
  469]⟩, ⟨.leaf 0 .yes, [467]⟩, ⟨.leaf 0 .yes, [468]⟩, ⟨.leaf 10 .yes, [448, 451, 454, 457, 460, 463, 484]⟩, ⟨.leaf 0 .yes, [470]⟩, ⟨.leaf 0 .yes,
  [471]⟩, ⟨.leaf 11 .yes, [472]⟩, ⟨.leaf 0 .yes, [473]⟩, ⟨.leaf 0 .yes, [474]⟩, ⟨.leaf 12 .yes, [475]⟩, ⟨.leaf 0 .yes, [476]⟩, ⟨.leaf 0 .yes, [477]⟩,
  ⟨.leaf 12 .yes, [478]⟩, ⟨.leaf 0 .yes, [479]⟩, ⟨.leaf 0 .yes, [480]⟩, ⟨.leaf 12 .yes, [481]⟩, ⟨.leaf 0 .yes, [482]⟩, ⟨.leaf 0 .yes, [483]⟩, ⟨.leaf
  12 .yes, [448, 451, 454, 457, 460, 463, 484]⟩, ⟨.leaf 0 .yes, [485]⟩, ⟨.leaf 0 .yes, [486]⟩, ⟨.leaf 1 .yes, [487]⟩, ⟨.fin 1 65535 33 8 65535 false
  .yes, []⟩, ⟨.leaf 0 .hard, [489]⟩, ⟨.leaf 0 .yes, [490]⟩, ⟨.leaf 13 .yes, [492, 495]⟩, ⟨.leaf 65535 .hard, []⟩, ⟨.leaf 0 .yes, [493]⟩, ⟨.leaf 0
  .yes, [494]⟩, ⟨.leaf 14 .yes, [501, 511, 525]⟩, ⟨.leaf 0 .yes, [496]⟩, ⟨.leaf 0 .yes, [497]⟩, ⟨.leaf 15 .yes, [498, 501, 511, 525]⟩, ⟨.leaf 0 .hard,
  [499]⟩, ⟨.leaf 0 .yes, [500]⟩, ⟨.leaf 16 .yes, [498, 501, 511, 525]⟩, ⟨.leaf 0 .hard, [502]⟩, ⟨.leaf 0 .yes, [503]⟩, ⟨.leaf 17 .yes, [504]⟩, ⟨.leaf
  0 .yes, [505]⟩, ⟨.leaf 0 .yes, [506]⟩, ⟨.leaf 16 .yes, [507, 511, 525]⟩, ⟨.leaf 0 .hard, [508]⟩, ⟨.leaf 0 .yes, [509]⟩, ⟨.leaf 16 .yes, [507, 511,
  525]⟩, ⟨.leaf 65535 .hard, []⟩, ⟨.leaf 0 .hard, [512]⟩, ⟨.leaf 0 .yes, [513]⟩, ⟨.leaf 18 .yes, [514, 518]⟩, ⟨.leaf 0 .hard, [515]⟩, ⟨.leaf 0 .yes,
  [516]⟩, ⟨.leaf 19 .yes, [518]⟩, ⟨.leaf 65535 .hard, []⟩, ⟨.leaf 0 .yes, [519]⟩, ⟨.leaf 0 .yes, [520]⟩, ⟨.leaf 16 .yes, [521, 525]⟩, ⟨.leaf 0 .hard,
  [522]⟩, ⟨.leaf 0 .yes, [523]⟩, ⟨.leaf 16 .yes, [521, 525]⟩, ⟨.leaf 65535 .hard, []⟩, ⟨.fin 2 65535 34 8 65535 false .yes, []⟩]

def setsm9 : CharsetMap := [([(0, 0)], 0), ([(0, 254)], 7), ([(0, 255)], 4), ([(1, 254)], 5), ([(1, 255)], 3), ([(16, 16)], 6), ([(32, 33), (35, 91),
  (93, 255)], 2), ([(34, 34)], 1), ([(34, 34), (47, 47), (92, 92), (98, 98), (102, 102), (110, 110), (114, 114), (116, 116)], 10), ([(43, 43), (45,
  45)], 19), ([(45, 45)], 13), ([(46, 46)], 17), ([(48, 48)], 14), ([(48, 57)], 16), ([(48, 57), (65, 70), (97, 102)], 12), ([(49, 57)], 15), ([(69,
  69), (101, 101)], 18), ([(92, 92)], 9), ([(117, 117)], 11), ([(255, 255)], 8)]

def rootm9 : Tree := (.sel (.seq (.seq (.seq (.seq (.seq (.leaf 445 false) (.leaf 446 false)) (.leaf 447 false)) (.iter (.sel (.sel (.sel (.sel (.sel
  (.seq (.seq (.leaf 448 false) (.leaf 449 false)) (.leaf 450 false)) (.seq (.seq (.leaf 451 false) (.leaf 452 false)) (.leaf 453 false))) (.seq (.seq
  (.leaf 454 false) (.leaf 455 false)) (.leaf 456 false))) (.seq (.seq (.leaf 457 false) (.leaf 458 false)) (.leaf 459 false))) (.seq (.seq (.leaf 460
  false) (.leaf 461 false)) (.leaf 462 false))) (.seq (.seq (.seq (.leaf 463 false) (.leaf 464 false)) (.leaf 465 false)) (.sel (.seq (.seq (.leaf 466
  false) (.leaf 467 false)) (.leaf 468 false)) (.seq (.seq (.seq (.leaf 469 false) (.leaf 470 false)) (.leaf 471 false)) (.seq (.seq (.seq (.seq (.seq
  (.leaf 472 false) (.leaf 473 false)) (.leaf 474 false)) (.seq (.seq (.leaf 475 false) (.leaf 476 false)) (.leaf 477 false))) (.seq (.seq (.leaf 478
  false) (.leaf 479 false)) (.leaf 480 false))) (.seq (.seq (.leaf 481 false) (.leaf 482 false)) (.leaf 483 false))))))) .hard)) (.seq (.seq (.leaf
  484 false) (.leaf 485 false)) (.leaf 486 false))) (.fin 487)) (.seq (.seq (.seq (.seq (.sel (.seq (.seq (.leaf 488 false) (.leaf 489 false)) (.leaf
  490 false)) (.leaf 491 true)) (.sel (.seq (.seq (.leaf 492 false) (.leaf 493 false)) (.leaf 494 false)) (.seq (.seq (.seq (.leaf 495 false) (.leaf
  496 false)) (.leaf 497 false)) (.iter (.seq (.seq (.leaf 498 false) (.leaf 499 false)) (.leaf 500 false)) .hard)))) (.sel (.seq (.seq (.seq (.leaf
  501 false) (.leaf 502 false)) (.leaf 503 false)) (.seq (.seq (.seq (.leaf 504 false) (.leaf 505 false)) (.leaf 506 false)) (.iter (.seq (.seq (.leaf
  507 false) (.leaf 508 false)) (.leaf 509 false)) .hard))) (.leaf 510 true))) (.sel (.seq (.seq (.seq (.seq (.leaf 511 false) (.leaf 512 false))
  (.leaf 513 false)) (.sel (.seq (.seq (.leaf 514 false) (.leaf 515 false)) (.leaf 516 false)) (.leaf 517 true))) (.seq (.seq (.seq (.leaf 518 false)
  (.leaf 519 false)) (.leaf 520 false)) (.iter (.seq (.seq (.leaf 521 false) (.leaf 522 false)) (.leaf 523 false)) .hard))) (.leaf 524 true))) (.fin
  525)))

def heap9 : Heap := [⟨.leaf 0 .yes, [1]⟩, ⟨.leaf 0 .yes, [2]⟩, ⟨.leaf 1 .yes, [3]⟩, ⟨.fin 4 65535 1 2 1 false .yes, []⟩, ⟨.leaf 0 .yes, [5]⟩, ⟨.leaf 0
  .yes, [6]⟩, ⟨.leaf 2 .yes, [7]⟩, ⟨.fin 7 65535 2 7 1 false .yes, []⟩, ⟨.leaf 0 .yes, [9]⟩, ⟨.leaf 0 .yes, [10]⟩, ⟨.leaf 3 .yes, [11, 14]⟩, ⟨.leaf 0
  .hard, [12]⟩, ⟨.leaf 0 .yes, [13]⟩, ⟨.leaf 3 .yes, [11, 14]⟩, ⟨.fin 65534 65535 3 0 65535 false .yes, []⟩, ⟨.leaf 0 .yes, [16]⟩, ⟨.leaf 0 .yes,
  [17]⟩, ⟨.leaf 1 .yes, [18, 21]⟩, ⟨.leaf 0 .hard, [19]⟩, ⟨.leaf 0 .yes, [20]⟩, ⟨.leaf 1 .yes, [18, 21]⟩, ⟨.fin 65534 65535 4 1 65535 false .yes, []⟩,
  ⟨.leaf 0 .yes, [23]⟩, ⟨.leaf 0 .yes, [24]⟩, ⟨.leaf 1 .yes, [25]⟩, ⟨.fin 6 65535 5 65535 65535 true .yes, []⟩, ⟨.leaf 0 .yes, [27]⟩, ⟨.leaf 0 .yes,
  [28]⟩, ⟨.leaf 2 .yes, [29, 32, 35, 38, 41, 44, 65]⟩, ⟨.leaf 0 .hard, [30]⟩, ⟨.leaf 0 .yes, [31]⟩, ⟨.leaf 3 .yes, [29, 32, 35, 38, 41, 44, 65]⟩,
  ⟨.leaf 0 .hard, [33]⟩, ⟨.leaf 4 .yes, [34]⟩, ⟨.leaf 5 .yes, [29, 32, 35, 38, 41, 44, 65]⟩, ⟨.leaf 6 .hard, [36]⟩, ⟨.leaf 5 .yes, [37]⟩, ⟨.leaf 5
  .yes, [29, 32, 35, 38, 41, 44, 65]⟩, ⟨.leaf 7 .hard, [39]⟩, ⟨.leaf 8 .yes, [40]⟩, ⟨.leaf 5 .yes, [29, 32, 35, 38, 41, 44, 65]⟩, ⟨.leaf 7 .hard,
  [42]⟩, ⟨.leaf 9 .yes, [43]⟩, ⟨.leaf 5 .yes, [29, 32, 35, 38, 41, 44, 65]⟩, ⟨.leaf 0 .hard, [45]⟩, ⟨.leaf 0 .yes, [46]⟩, ⟨.leaf 10 .yes, [47, 50]⟩,
  ⟨.leaf 0 .yes, [48]⟩, ⟨.leaf 0 .yes, [49]⟩, ⟨.leaf 11 .yes, [29, 32, 35, 38, 41, 44, 65]⟩, ⟨.leaf 0 .yes, [51]⟩, ⟨.leaf 0 .yes, [52]⟩, ⟨.leaf 12
  .yes, [53]⟩, ⟨.leaf 0 .yes, [54]⟩, ⟨.leaf 0 .yes, [55]⟩, ⟨.leaf 13 .yes, [56]⟩, ⟨.leaf 0 .yes, [57]⟩, ⟨.leaf 0 .yes, [58]⟩, ⟨.leaf 13 .yes, [59]⟩,
  ⟨.leaf 0 .yes, [60]⟩, ⟨.leaf 0 .yes, [61]⟩, ⟨.leaf 13 .yes, [62]⟩, ⟨.leaf 0 .yes, [63]⟩, ⟨.leaf 0 .yes, [64]⟩, ⟨.leaf 13 .yes, [29, 32, 35, 38, 41,
  44, 65]⟩, ⟨.leaf 0 .yes, [66]⟩, ⟨.leaf 0 .yes, [67]⟩, ⟨.leaf 2 .yes, [68]⟩, ⟨.fin 5 65535 6 4 65535 false .yes, []⟩, ⟨.leaf 0 .yes, [70]⟩, ⟨.leaf 0
  .yes, [71]⟩, ⟨.leaf 14 .yes, [72, 75]⟩, ⟨.leaf 0 .hard, [73]⟩, ⟨.leaf 0 .yes, [74]⟩, ⟨.leaf 14 .yes, [72, 75]⟩, ⟨.fin 65534 65535 7 2 65535 false
  .yes, []⟩, ⟨.leaf 0 .yes, [77]⟩, ⟨.leaf 0 .yes, [78]⟩, ⟨.leaf 1 .yes, [79, 82, 85, 88, 91, 94, 115]⟩, ⟨.leaf 0 .hard, [80]⟩, ⟨.leaf 0 .yes, [81]⟩,
  ⟨.leaf 2 .yes, [79, 82, 85, 88, 91, 94, 115]⟩, ⟨.leaf 0 .hard, [83]⟩, ⟨.leaf 3 .yes, [84]⟩, ⟨.leaf 4 .yes, [79, 82, 85, 88, 91, 94, 115]⟩, ⟨.leaf 5
  .hard, [86]⟩, ⟨.leaf 4 .yes, [87]⟩, ⟨.leaf 4 .yes, [79, 82, 85, 88, 91, 94, 115]⟩, ⟨.leaf 6 .hard, [89]⟩, ⟨.leaf 7 .yes, [90]⟩, ⟨.leaf 4 .yes, [79,
  82, 85, 88, 91, 94, 115]⟩, ⟨.leaf 6 .hard, [92]⟩, ⟨.leaf 8 .yes, [93]⟩, ⟨.leaf 4 .yes, [79, 82, 85, 88, 91, 94, 115]⟩, ⟨.leaf 0 .hard, [95]⟩, ⟨.leaf
  0 .yes, [96]⟩, ⟨.leaf 9 .yes, [97, 100]⟩, ⟨.leaf 0 .yes, [98]⟩, ⟨.leaf 0 .yes, [99]⟩, ⟨.leaf 10 .yes, [79, 82, 85, 88, 91, 94, 115]⟩, ⟨.leaf 0 .yes,
  [101]⟩, ⟨.leaf 0 .yes, [102]⟩, ⟨.leaf 11 .yes, [103]⟩, ⟨.leaf 0 .yes, [104]⟩, ⟨.leaf 0 .yes, [105]⟩, ⟨.leaf 12 .yes, [106]⟩, ⟨.leaf 0 .yes, [107]⟩,
  ⟨.leaf 0 .yes, [108]⟩, ⟨.leaf 12 .yes, [109]⟩, ⟨.leaf 0 .yes, [110]⟩, ⟨.leaf 0 .yes, [111]⟩, ⟨.leaf 12 .yes, [112]⟩, ⟨.leaf 0 .yes, [113]⟩, ⟨.leaf 0
  .yes, [114]⟩, ⟨.leaf 12 .yes, [79, 82, 85, 88, 91, 94, 115]⟩, ⟨.leaf 0 .yes, [116]⟩, ⟨.leaf 0 .yes, [117]⟩, ⟨.leaf 1 .yes, [118]⟩, ⟨.fin 5 65535 8 4
  65535 false .yes, []⟩, ⟨.leaf 0 .yes, [120]⟩, ⟨.leaf 0 .yes, [121]⟩, ⟨.leaf 13 .yes, [122, 125]⟩, ⟨.leaf 0 .hard, [123]⟩, ⟨.leaf 0 .yes, [124]⟩,
  ⟨.leaf 13 .yes, [122, 125]⟩, ⟨.fin 65534 65535 9 3 65535 false .yes, []⟩, ⟨.leaf 0 .yes, [127]⟩, ⟨.leaf 0 .yes, [128]⟩, ⟨.leaf 1 .yes, [129]⟩, ⟨.fin
  65534 65535 10 5 65535 false .yes, []⟩, ⟨.leaf 0 .yes, [131]⟩, ⟨.leaf 0 .yes, [132]⟩, ⟨.leaf 2 .yes, [133, 136]⟩, ⟨.leaf 0 .hard, [134]⟩, ⟨.leaf 0
  .yes, [135]⟩, ⟨.leaf 2 .yes, [133, 136]⟩, ⟨.fin 65534 65535 11 4 65535 false .yes, []⟩, ⟨.leaf 0 .yes, [138]⟩, ⟨.leaf 0 .yes, [139]⟩, ⟨.leaf 1 .yes,
  [140, 143, 146, 149, 152, 155, 176]⟩, ⟨.leaf 0 .hard, [141]⟩, ⟨.leaf 0 .yes, [142]⟩, ⟨.leaf 2 .yes, [140, 143, 146, 149, 152, 155, 176]⟩, ⟨.leaf 0
  .hard, [144]⟩, ⟨.leaf 3 .yes, [145]⟩, ⟨.leaf 4 .yes, [140, 143, 146, 149, 152, 155, 176]⟩, ⟨.leaf 5 .hard, [147]⟩, ⟨.leaf 4 .yes, [148]⟩, ⟨.leaf 4
  .yes, [140, 143, 146, 149, 152, 155, 176]⟩, ⟨.leaf 6 .hard, [150]⟩, ⟨.leaf 7 .yes, [151]⟩, ⟨.leaf 4 .yes, [140, 143, 146, 149, 152, 155, 176]⟩,
  ⟨.leaf 6 .hard, [153]⟩, ⟨.leaf 8 .yes, [154]⟩, ⟨.leaf 4 .yes, [140, 143, 146, 149, 152, 155, 176]⟩, ⟨.leaf 0 .hard, [156]⟩, ⟨.leaf 0 .yes, [157]⟩,
  ⟨.leaf 9 .yes, [158, 161]⟩, ⟨.leaf 0 .yes, [159]⟩, ⟨.leaf 0 .yes, [160]⟩, ⟨.leaf 10 .yes, [140, 143, 146, 149, 152, 155, 176]⟩, ⟨.leaf 0 .yes,
  [162]⟩, ⟨.leaf 0 .yes, [163]⟩, ⟨.leaf 11 .yes, [164]⟩, ⟨.leaf 0 .yes, [165]⟩, ⟨.leaf 0 .yes, [166]⟩, ⟨.leaf 12 .yes, [167]⟩, ⟨.leaf 0 .yes, [168]⟩,
  ⟨.leaf 0 .yes, [169]⟩, ⟨.leaf 12 .yes, [170]⟩, ⟨.leaf 0 .yes, [171]⟩, ⟨.leaf 0 .yes, [172]⟩, ⟨.leaf 12 .yes, [173]⟩, ⟨.leaf 0 .yes, [174]⟩, ⟨.leaf 0
  .yes, [175]⟩, ⟨.leaf 12 .yes, [140, 143, 146, 149, 152, 155, 176]⟩, ⟨.leaf 0 .yes, [177]⟩, ⟨.leaf 0 .yes, [178]⟩, ⟨.leaf 1 .yes, [179]⟩, ⟨.fin 1
  65535 12 6 65535 false .yes, []⟩, ⟨.leaf 0 .hard, [181]⟩, ⟨.leaf 0 .yes, [182]⟩, ⟨.leaf 13 .yes, [184, 187]⟩, ⟨.leaf 65535 .hard, []⟩, ⟨.leaf 0
  .yes, [185]⟩, ⟨.leaf 0 .yes, [186]⟩, ⟨.leaf 14 .yes, [193, 203, 217]⟩, ⟨.leaf 0 .yes, [188]⟩, ⟨.leaf 0 .yes, [189]⟩, ⟨.leaf 15 .yes, [190, 193, 203,
  217]⟩, ⟨.leaf 0 .hard, [191]⟩, ⟨.leaf 0 .yes, [192]⟩, ⟨.leaf 16 .yes, [190, 193, 203, 217]⟩, ⟨.leaf 0 .hard, [194]⟩, ⟨.leaf 0 .yes, [195]⟩, ⟨.leaf
  17 .yes, [196]⟩, ⟨.leaf 0 .yes, [197]⟩, ⟨.leaf 0 .yes, [198]⟩, ⟨.leaf 16 .yes, [199, 203, 217]⟩, ⟨.leaf 0 .hard, [200]⟩, ⟨.leaf 0 .yes, [201]⟩,
  ⟨.leaf 16 .yes, [199, 203, 217]⟩, ⟨.leaf 65535 .hard, []⟩, ⟨.leaf 0 .hard, [204]⟩, ⟨.leaf 0 .yes, [205]⟩, ⟨.leaf 18 .yes, [206, 210]⟩, ⟨.leaf 0
  .hard, [207]⟩, ⟨.leaf 0 .yes, [208]⟩, ⟨.leaf 19 .yes, [210]⟩, ⟨.leaf 65535 .hard, []⟩, ⟨.leaf 0 .yes, [211]⟩, ⟨.leaf 0 .yes, [212]⟩, ⟨.leaf 16 .yes,
  [213, 217]⟩, ⟨.leaf 0 .hard, [214]⟩, ⟨.leaf 0 .yes, [215]⟩, ⟨.leaf 16 .yes, [213, 217]⟩, ⟨.leaf 65535 .hard, []⟩, ⟨.fin 2 65535 13 6 65535 false
  .yes, []⟩, ⟨.leaf 0 .yes, [219]⟩, ⟨.leaf 0 .yes, [220]⟩, ⟨.leaf 20 .yes, [221]⟩, ⟨.leaf 0 .yes, [222]⟩, ⟨.leaf 0 .yes, [223]⟩, ⟨.leaf 21 .yes,
  [224]⟩, ⟨.leaf 0 .yes, [225]⟩, ⟨.leaf 0 .yes, [226]⟩, ⟨.leaf 11 .yes, [227]⟩, ⟨.leaf 0 .yes, [228]⟩, ⟨.leaf 0 .yes, [229]⟩, ⟨.leaf 22 .yes, [245]⟩,
  ⟨.leaf 0 .yes, [231]⟩, ⟨.leaf 0 .yes, [232]⟩, ⟨.leaf 23 .yes, [233]⟩, ⟨.leaf 0 .yes, [234]⟩, ⟨.leaf 0 .yes, [235]⟩, ⟨.leaf 24 .yes, [236]⟩, ⟨.leaf 0
  .yes, [237]⟩, ⟨.leaf 0 .yes, [238]⟩, ⟨.leaf 25 .yes, [239]⟩, ⟨.leaf 0 .yes, [240]⟩, ⟨.leaf 0 .yes, [241]⟩, ⟨.leaf 26 .yes, [242]⟩, ⟨.leaf 0 .yes,
  [243]⟩, ⟨.leaf 0 .yes, [244]⟩, ⟨.leaf 22 .yes, [245]⟩, ⟨.fin 3 65535 14 6 65535 false .yes, []⟩, ⟨.leaf 0 .yes, [247]⟩, ⟨.leaf 0 .yes, [248]⟩,
  ⟨.leaf 27 .yes, [249]⟩, ⟨.leaf 0 .yes, [250]⟩, ⟨.leaf 0 .yes, [251]⟩, ⟨.leaf 11 .yes, [252]⟩, ⟨.leaf 0 .yes, [253]⟩, ⟨.leaf 0 .yes, [254]⟩, ⟨.leaf
  25 .yes, [255]⟩, ⟨.leaf 0 .yes, [256]⟩, ⟨.leaf 0 .yes, [257]⟩, ⟨.leaf 25 .yes, [258]⟩, ⟨.fin 9 65535 15 6 65535 false .yes, []⟩, ⟨.leaf 0 .yes,
  [260]⟩, ⟨.leaf 0 .yes, [261]⟩, ⟨.leaf 28 .yes, [262]⟩, ⟨.fin 4 65535 16 2 6 false .yes, []⟩, ⟨.leaf 0 .yes, [264]⟩, ⟨.leaf 0 .yes, [265]⟩, ⟨.leaf 29
  .yes, [266]⟩, ⟨.fin 7 65535 17 7 6 false .yes, []⟩, ⟨.leaf 0 .yes, [268]⟩, ⟨.leaf 0 .yes, [269]⟩, ⟨.leaf 30 .yes, [270, 273]⟩, ⟨.leaf 0 .hard,
  [271]⟩, ⟨.leaf 0 .yes, [272]⟩, ⟨.leaf 30 .yes, [270, 273]⟩, ⟨.fin 65534 65535 18 5 65535 false .yes, []⟩, ⟨.leaf 0 .yes, [275]⟩, ⟨.leaf 0 .yes,
  [276]⟩, ⟨.leaf 1 .yes, [277]⟩, ⟨.fin 6 65535 19 65535 65535 true .yes, []⟩, ⟨.leaf 0 .yes, [279]⟩, ⟨.leaf 0 .yes, [280]⟩, ⟨.leaf 2 .yes, [281]⟩,
  ⟨.fin 65534 65535 20 3 65535 false .yes, []⟩, ⟨.leaf 0 .yes, [283]⟩, ⟨.leaf 0 .yes, [284]⟩, ⟨.leaf 3 .yes, [285, 288]⟩, ⟨.leaf 0 .hard, [286]⟩,
  ⟨.leaf 0 .yes, [287]⟩, ⟨.leaf 3 .yes, [285, 288]⟩, ⟨.fin 65534 65535 21 6 65535 false .yes, []⟩, ⟨.leaf 0 .yes, [290]⟩, ⟨.leaf 0 .yes, [291]⟩,
  ⟨.leaf 1 .yes, [292]⟩, ⟨.fin 8 65535 22 65535 65535 true .yes, []⟩, ⟨.leaf 0 .yes, [294]⟩, ⟨.leaf 0 .yes, [295]⟩, ⟨.leaf 2 .yes, [296, 299, 302,
  305, 308, 311, 332]⟩, ⟨.leaf 0 .hard, [297]⟩, ⟨.leaf 0 .yes, [298]⟩, ⟨.leaf 3 .yes, [296, 299, 302, 305, 308, 311, 332]⟩, ⟨.leaf 0 .hard, [300]⟩,
  ⟨.leaf 4 .yes, [301]⟩, ⟨.leaf 5 .yes, [296, 299, 302, 305, 308, 311, 332]⟩, ⟨.leaf 6 .hard, [303]⟩, ⟨.leaf 5 .yes, [304]⟩, ⟨.leaf 5 .yes, [296, 299,
  302, 305, 308, 311, 332]⟩, ⟨.leaf 7 .hard, [306]⟩, ⟨.leaf 8 .yes, [307]⟩, ⟨.leaf 5 .yes, [296, 299, 302, 305, 308, 311, 332]⟩, ⟨.leaf 7 .hard,
  [309]⟩, ⟨.leaf 9 .yes, [310]⟩, ⟨.leaf 5 .yes, [296, 299, 302, 305, 308, 311, 332]⟩, ⟨.leaf 0 .hard, [312]⟩, ⟨.leaf 0 .yes, [313]⟩, ⟨.leaf 10 .yes,
  [314, 317]⟩, ⟨.leaf 0 .yes, [315]⟩, ⟨.leaf 0 .yes, [316]⟩, ⟨.leaf 11 .yes, [296, 299, 302, 305, 308, 311, 332]⟩, ⟨.leaf 0 .yes, [318]⟩, ⟨.leaf 0
  .yes, [319]⟩, ⟨.leaf 12 .yes, [320]⟩, ⟨.leaf 0 .yes, [321]⟩, ⟨.leaf 0 .yes, [322]⟩, ⟨.leaf 13 .yes, [323]⟩, ⟨.leaf 0 .yes, [324]⟩, ⟨.leaf 0 .yes,
  [325]⟩, ⟨.leaf 13 .yes, [326]⟩, ⟨.leaf 0 .yes, [327]⟩, ⟨.leaf 0 .yes, [328]⟩, ⟨.leaf 13 .yes, [329]⟩, ⟨.leaf 0 .yes, [330]⟩, ⟨.leaf 0 .yes, [331]⟩,
  ⟨.leaf 13 .yes, [296, 299, 302, 305, 308, 311, 332]⟩, ⟨.leaf 0 .yes, [333]⟩, ⟨.leaf 0 .yes, [334]⟩, ⟨.leaf 2 .yes, [335]⟩, ⟨.fin 1 65535 23 8 65535
  false .yes, []⟩, ⟨.leaf 0 .hard, [337]⟩, ⟨.leaf 0 .yes, [338]⟩, ⟨.leaf 14 .yes, [340, 343]⟩, ⟨.leaf 65535 .hard, []⟩, ⟨.leaf 0 .yes, [341]⟩, ⟨.leaf
  0 .yes, [342]⟩, ⟨.leaf 15 .yes, [349, 359, 373]⟩, ⟨.leaf 0 .yes, [344]⟩, ⟨.leaf 0 .yes, [345]⟩, ⟨.leaf 16 .yes, [346, 349, 359, 373]⟩, ⟨.leaf 0
  .hard, [347]⟩, ⟨.leaf 0 .yes, [348]⟩, ⟨.leaf 17 .yes, [346, 349, 359, 373]⟩, ⟨.leaf 0 .hard, [350]⟩, ⟨.leaf 0 .yes, [351]⟩, ⟨.leaf 18 .yes, [352]⟩,
  ⟨.leaf 0 .yes, [353]⟩, ⟨.leaf 0 .yes, [354]⟩, ⟨.leaf 17 .yes, [355, 359, 373]⟩, ⟨.leaf 0 .hard, [356]⟩, ⟨.leaf 0 .yes, [357]⟩, ⟨.leaf 17 .yes, [355,
  359, 373]⟩, ⟨.leaf 65535 .hard, []⟩, ⟨.leaf 0 .hard, [360]⟩, ⟨.leaf 0 .yes, [361]⟩, ⟨.leaf 19 .yes, [362, 366]⟩, ⟨.leaf 0 .hard, [363]⟩, ⟨.leaf 0
  .yes, [364]⟩, ⟨.leaf 20 .yes, [366]⟩, ⟨.leaf 65535 .hard, []⟩, ⟨.leaf 0 .yes, [367]⟩, ⟨.leaf 0 .yes, [368]⟩, ⟨.leaf 17 .yes, [369, 373]⟩, ⟨.leaf 0
  .hard, [370]⟩, ⟨.leaf 0 .yes, [371]⟩, ⟨.leaf 17 .yes, [369, 373]⟩, ⟨.leaf 65535 .hard, []⟩, ⟨.fin 2 65535 24 8 65535 false .yes, []⟩, ⟨.leaf 0 .yes,
  [375]⟩, ⟨.leaf 0 .yes, [376]⟩, ⟨.leaf 21 .yes, [377]⟩, ⟨.leaf 0 .yes, [378]⟩, ⟨.leaf 0 .yes, [379]⟩, ⟨.leaf 22 .yes, [380]⟩, ⟨.leaf 0 .yes, [381]⟩,
  ⟨.leaf 0 .yes, [382]⟩, ⟨.leaf 12 .yes, [383]⟩, ⟨.leaf 0 .yes, [384]⟩, ⟨.leaf 0 .yes, [385]⟩, ⟨.leaf 23 .yes, [401]⟩, ⟨.leaf 0 .yes, [387]⟩, ⟨.leaf 0
  .yes, [388]⟩, ⟨.leaf 24 .yes, [389]⟩, ⟨.leaf 0 .yes, [390]⟩, ⟨.leaf 0 .yes, [391]⟩, ⟨.leaf 25 .yes, [392]⟩, ⟨.leaf 0 .yes, [393]⟩, ⟨.leaf 0 .yes,
  [394]⟩, ⟨.leaf 26 .yes, [395]⟩, ⟨.leaf 0 .yes, [396]⟩, ⟨.leaf 0 .yes, [397]⟩, ⟨.leaf 27 .yes, [398]⟩, ⟨.leaf 0 .yes, [399]⟩, ⟨.leaf 0 .yes, [400]⟩,
  ⟨.leaf 23 .yes, [401]⟩, ⟨.fin 3 65535 25 8 65535 false .yes, []⟩, ⟨.leaf 0 .yes, [403]⟩, ⟨.leaf 0 .yes, [404]⟩, ⟨.leaf 28 .yes, [405]⟩, ⟨.leaf 0
  .yes, [406]⟩, ⟨.leaf 0 .yes, [407]⟩, ⟨.leaf 12 .yes, [408]⟩, ⟨.leaf 0 .yes, [409]⟩, ⟨.leaf 0 .yes, [410]⟩, ⟨.leaf 26 .yes, [411]⟩, ⟨.leaf 0 .yes,
  [412]⟩, ⟨.leaf 0 .yes, [413]⟩, ⟨.leaf 26 .yes, [414]⟩, ⟨.fin 9 65535 26 8 65535 false .yes, []⟩, ⟨.leaf 0 .yes, [416]⟩, ⟨.leaf 0 .yes, [417]⟩,
  ⟨.leaf 29 .yes, [418]⟩, ⟨.fin 4 65535 27 2 8 false .yes, []⟩, ⟨.leaf 0 .yes, [420]⟩, ⟨.leaf 0 .yes, [421]⟩, ⟨.leaf 30 .yes, [422]⟩, ⟨.fin 7 65535 28
  7 8 false .yes, []⟩, ⟨.leaf 0 .yes, [424]⟩, ⟨.leaf 0 .yes, [425]⟩, ⟨.leaf 31 .yes, [426, 429]⟩, ⟨.leaf 0 .hard, [427]⟩, ⟨.leaf 0 .yes, [428]⟩,
  ⟨.leaf 31 .yes, [426, 429]⟩, ⟨.fin 65534 65535 29 7 65535 false .yes, []⟩, ⟨.leaf 0 .yes, [431]⟩, ⟨.leaf 0 .yes, [432]⟩, ⟨.leaf 1 .yes, [433]⟩,
  ⟨.fin 8 65535 30 65535 65535 true .yes, []⟩, ⟨.leaf 0 .yes, [435]⟩, ⟨.leaf 0 .yes, [436]⟩, ⟨.leaf 2 .yes, [437]⟩, ⟨.fin 65534 65535 31 9 65535 false
  .yes, []⟩, ⟨.leaf 0 .yes, [439]⟩, ⟨.leaf 0 .yes, [440]⟩, ⟨.leaf 3 .yes, [441, 444]⟩, ⟨.leaf 0 .hard, [442]⟩, ⟨.leaf 0 .yes, [443]⟩, ⟨.leaf 3 .yes,
  [441, 444]⟩, ⟨.fin 65534 65535 32 8 65535 false .yes, []⟩, ⟨.leaf 0 .yes, [446]⟩, ⟨.leaf 0 .yes, [447]⟩, ⟨.leaf 1 .yes, [448, 451, 454, 457, 460,
  463, 484]⟩, ⟨.leaf 0 .hard, [449]⟩, ⟨.leaf 0 .yes, [450]⟩, ⟨.leaf 2 .yes, [448, 451, 454, 457, 460, 463, 484]⟩, ⟨.leaf 0 .hard, [452]⟩, ⟨.leaf 3
  .yes, [453]⟩, ⟨.leaf 4 .yes, [448, 451, 454, 457, 460, 463, 484]⟩, ⟨.leaf 5 .hard, [455]⟩, ⟨.leaf 4 .yes, [456]⟩, ⟨.leaf 4 .yes, [448, 451, 454,
  457, 460, 463, 484]⟩, ⟨.leaf 6 .hard, [458]⟩, ⟨.leaf 7 .yes, [459]⟩, ⟨.leaf 4 .yes, [448, 451, 454, 457, 460, 463, 484]⟩, ⟨.leaf 6 .hard, [461]⟩,
  ⟨.leaf 8 .yes, [462]⟩, ⟨.leaf 4 .yes, [448, 451, 454, 457, 460, 463, 484]⟩, ⟨.leaf 0 .hard, [464]⟩, ⟨.leaf 0 .yes, [465]⟩, ⟨.leaf 9 .yes, [466,
  469]⟩, ⟨.leaf 0 .yes, [467]⟩, ⟨.leaf 0 .yes, [468]⟩, ⟨.leaf 10 .yes, [448, 451, 454, 457, 460, 463, 484]⟩, ⟨.leaf 0 .yes, [470]⟩, ⟨.leaf 0 .yes,
  [471]⟩, ⟨.leaf 11 .yes, [472]⟩, ⟨.leaf 0 .yes, [473]⟩, ⟨.leaf 0 .yes, [474]⟩, ⟨.leaf 12 .yes, [475]⟩, ⟨.leaf 0 .yes, [476]⟩, ⟨.leaf 0 .yes, [477]⟩,
  ⟨.leaf 12 .yes, [478]⟩, ⟨.leaf 0 .yes, [479]⟩, ⟨.leaf 0 .yes, [480]⟩, ⟨.leaf 12 .yes, [481]⟩, ⟨.leaf 0 .yes, [482]⟩, ⟨.leaf 0 .yes, [483]⟩, ⟨.leaf
  12 .yes, [448, 451, 454, 457, 460, 463, 484]⟩, ⟨.leaf 0 .yes, [485]⟩, ⟨.leaf 0 .yes, [486]⟩, ⟨.leaf 1 .yes, [487]⟩, ⟨.fin 1 65535 33 8 65535 false
  .yes, []⟩, ⟨.leaf 0 .hard, [489]⟩, ⟨.leaf 0 .yes, [490]⟩, ⟨.leaf 13 .yes, [492, 495]⟩, ⟨.leaf 65535 .hard, []⟩, ⟨.leaf 0 .yes, [493]⟩, ⟨.leaf 0
  .yes, [494]⟩, ⟨.leaf 14 .yes, [501, 511, 525]⟩, ⟨.leaf 0 .yes, [496]⟩, ⟨.leaf 0 .yes, [497]⟩, ⟨.leaf 15 .yes, [498, 501, 511, 525]⟩, ⟨.leaf 0 .hard,
  [499]⟩, ⟨.leaf 0 .yes, [500]⟩, ⟨.leaf 16 .yes, [498, 501, 511, 525]⟩, ⟨.leaf 0 .hard, [502]⟩, ⟨.leaf 0 .yes, [503]⟩, ⟨.leaf 17 .yes, [504]⟩, ⟨.leaf
  0 .yes, [505]⟩, ⟨.leaf 0 .yes, [506]⟩, ⟨.leaf 16 .yes, [507, 511, 525]⟩, ⟨.leaf 0 .hard, [508]⟩, ⟨.leaf 0 .yes, [509]⟩, ⟨.leaf 16 .yes, [507, 511,
  525]⟩, ⟨.leaf 65535 .hard, []⟩, ⟨.leaf 0 .hard, [512]⟩, ⟨.leaf 0 .yes, [513]⟩, ⟨.leaf 18 .yes, [514, 518]⟩, ⟨.leaf 0 .hard, [515]⟩, ⟨.leaf 0 .yes,
  [516]⟩, ⟨.leaf 19 .yes, [518]⟩, ⟨.leaf 65535 .hard, []⟩, ⟨.leaf 0 .yes, [519]⟩, ⟨.leaf 0 .yes, [520]⟩, ⟨.leaf 16 .yes, [521, 525]⟩, ⟨.leaf 0 .hard,
  [522]⟩, ⟨.leaf 0 .yes, [523]⟩, ⟨.leaf 16 .yes, [521, 525]⟩, ⟨.leaf 65535 .hard, []⟩, ⟨.fin 2 65535 34 8 65535 false .yes, []⟩, ⟨.leaf 0 .yes,
  [527]⟩, ⟨.leaf 0 .yes, [528]⟩, ⟨.leaf 20 .yes, [529]⟩, ⟨.leaf 0 .yes, [530]⟩, ⟨.leaf 0 .yes, [531]⟩, ⟨.leaf 21 .yes, [532]⟩, ⟨.leaf 0 .yes, [533]⟩,
  ⟨.leaf 0 .yes, [534]⟩, ⟨.leaf 11 .yes, [535]⟩, ⟨.leaf 0 .yes, [536]⟩, ⟨.leaf 0 .yes, [537]⟩, ⟨.leaf 22 .yes, [553]⟩, ⟨.leaf 0 .yes, [539]⟩, ⟨.leaf 0
  .yes, [540]⟩, ⟨.leaf 23 .yes, [541]⟩, ⟨.leaf 0 .yes, [542]⟩, ⟨.leaf 0 .yes, [543]⟩, ⟨.leaf 24 .yes, [544]⟩, ⟨.leaf 0 .yes, [545]⟩, ⟨.leaf 0 .yes,
  [546]⟩, ⟨.leaf 25 .yes, [547]⟩, ⟨.leaf 0 .yes, [548]⟩, ⟨.leaf 0 .yes, [549]⟩, ⟨.leaf 26 .yes, [550]⟩, ⟨.leaf 0 .yes, [551]⟩, ⟨.leaf 0 .yes, [552]⟩,
  ⟨.leaf 22 .yes, [553]⟩, ⟨.fin 3 65535 35 8 65535 false .yes, []⟩, ⟨.leaf 0 .yes, [555]⟩, ⟨.leaf 0 .yes, [556]⟩, ⟨.leaf 27 .yes, [557]⟩, ⟨.leaf 0
  .yes, [558]⟩, ⟨.leaf 0 .yes, [559]⟩, ⟨.leaf 11 .yes, [560]⟩, ⟨.leaf 0 .yes, [561]⟩, ⟨.leaf 0 .yes, [562]⟩, ⟨.leaf 25 .yes, [563]⟩, ⟨.leaf 0 .yes,
  [564]⟩, ⟨.leaf 0 .yes, [565]⟩, ⟨.leaf 25 .yes, [566]⟩, ⟨.fin 9 65535 36 8 65535 false .yes, []⟩, ⟨.leaf 0 .yes, [568]⟩, ⟨.leaf 0 .yes, [569]⟩,
  ⟨.leaf 28 .yes, [570]⟩, ⟨.fin 4 65535 37 2 8 false .yes, []⟩, ⟨.leaf 0 .yes, [572]⟩, ⟨.leaf 0 .yes, [573]⟩, ⟨.leaf 29 .yes, [574]⟩, ⟨.fin 7 65535 38
  7 8 false .yes, []⟩, ⟨.leaf 0 .yes, [576]⟩, ⟨.leaf 0 .yes, [577]⟩, ⟨.leaf 30 .yes, [578, 581]⟩, ⟨.leaf 0 .hard, [579]⟩, ⟨.leaf 0 .yes, [580]⟩,
  ⟨.leaf 30 .yes, [578, 581]⟩, ⟨.fin 65534 65535 39 9 65535 false .yes, []⟩]

def sets9 : CharsetMap := [([(0, 0)], 0), ([(0, 254)], 7), ([(0, 255)], 4), ([(1, 254)], 5), ([(1, 255)], 3), ([(9, 10), (13, 13), (32, 32)], 30),
  ([(16, 16)], 6), ([(32, 33), (35, 91), (93, 255)], 2), ([(34, 34)], 1), ([(34, 34), (47, 47), (92, 92), (98, 98), (102, 102), (110, 110), (114,
  114), (116, 116)], 10), ([(43, 43), (45, 45)], 19), ([(45, 45)], 13), ([(46, 46)], 17), ([(48, 48)], 14), ([(48, 57)], 16), ([(48, 57), (65, 70),
  (97, 102)], 12), ([(49, 57)], 15), ([(69, 69), (101, 101)], 18), ([(91, 91)], 29), ([(92, 92)], 9), ([(97, 97)], 24), ([(101, 101)], 22), ([(102,
  102)], 23), ([(108, 108)], 25), ([(110, 110)], 27), ([(114, 114)], 21), ([(115, 115)], 26), ([(116, 116)], 20), ([(117, 117)], 11), ([(123, 123)],
  28), ([(255, 255)], 8)]

def root9 : Tree := (.sel (.sel (.sel (.sel (.sel (.sel (.seq (.seq (.seq (.seq (.seq (.leaf 445 false) (.leaf 446 false)) (.leaf 447 false)) (.iter
  (.sel (.sel (.sel (.sel (.sel (.seq (.seq (.leaf 448 false) (.leaf 449 false)) (.leaf 450 false)) (.seq (.seq (.leaf 451 false) (.leaf 452 false))
  (.leaf 453 false))) (.seq (.seq (.leaf 454 false) (.leaf 455 false)) (.leaf 456 false))) (.seq (.seq (.leaf 457 false) (.leaf 458 false)) (.leaf 459
  false))) (.seq (.seq (.leaf 460 false) (.leaf 461 false)) (.leaf 462 false))) (.seq (.seq (.seq (.leaf 463 false) (.leaf 464 false)) (.leaf 465
  false)) (.sel (.seq (.seq (.leaf 466 false) (.leaf 467 false)) (.leaf 468 false)) (.seq (.seq (.seq (.leaf 469 false) (.leaf 470 false)) (.leaf 471
  false)) (.seq (.seq (.seq (.seq (.seq (.leaf 472 false) (.leaf 473 false)) (.leaf 474 false)) (.seq (.seq (.leaf 475 false) (.leaf 476 false))
  (.leaf 477 false))) (.seq (.seq (.leaf 478 false) (.leaf 479 false)) (.leaf 480 false))) (.seq (.seq (.leaf 481 false) (.leaf 482 false)) (.leaf 483
  false))))))) .hard)) (.seq (.seq (.leaf 484 false) (.leaf 485 false)) (.leaf 486 false))) (.fin 487)) (.seq (.seq (.seq (.seq (.sel (.seq (.seq
  (.leaf 488 false) (.leaf 489 false)) (.leaf 490 false)) (.leaf 491 true)) (.sel (.seq (.seq (.leaf 492 false) (.leaf 493 false)) (.leaf 494 false))
  (.seq (.seq (.seq (.leaf 495 false) (.leaf 496 false)) (.leaf 497 false)) (.iter (.seq (.seq (.leaf 498 false) (.leaf 499 false)) (.leaf 500 false))
  .hard)))) (.sel (.seq (.seq (.seq (.leaf 501 false) (.leaf 502 false)) (.leaf 503 false)) (.seq (.seq (.seq (.leaf 504 false) (.leaf 505 false))
  (.leaf 506 false)) (.iter (.seq (.seq (.leaf 507 false) (.leaf 508 false)) (.leaf 509 false)) .hard))) (.leaf 510 true))) (.sel (.seq (.seq (.seq
  (.seq (.leaf 511 false) (.leaf 512 false)) (.leaf 513 false)) (.sel (.seq (.seq (.leaf 514 false) (.leaf 515 false)) (.leaf 516 false)) (.leaf 517
  true))) (.seq (.seq (.seq (.leaf 518 false) (.leaf 519 false)) (.leaf 520 false)) (.iter (.seq (.seq (.leaf 521 false) (.leaf 522 false)) (.leaf 523
  false)) .hard))) (.leaf 524 true))) (.fin 525))) (.seq (.sel (.seq (.seq (.seq (.seq (.seq (.leaf 526 false) (.leaf 527 false)) (.leaf 528 false))
  (.seq (.seq (.leaf 529 false) (.leaf 530 false)) (.leaf 531 false))) (.seq (.seq (.leaf 532 false) (.leaf 533 false)) (.leaf 534 false))) (.seq
  (.seq (.leaf 535 false) (.leaf 536 false)) (.leaf 537 false))) (.seq (.seq (.seq (.seq (.seq (.seq (.leaf 538 false) (.leaf 539 false)) (.leaf 540
  false)) (.seq (.seq (.leaf 541 false) (.leaf 542 false)) (.leaf 543 false))) (.seq (.seq (.leaf 544 false) (.leaf 545 false)) (.leaf 546 false)))
  (.seq (.seq (.leaf 547 false) (.leaf 548 false)) (.leaf 549 false))) (.seq (.seq (.leaf 550 false) (.leaf 551 false)) (.leaf 552 false)))) (.fin
  553))) (.seq (.seq (.seq (.seq (.seq (.seq (.leaf 554 false) (.leaf 555 false)) (.leaf 556 false)) (.seq (.seq (.leaf 557 false) (.leaf 558 false))
  (.leaf 559 false))) (.seq (.seq (.leaf 560 false) (.leaf 561 false)) (.leaf 562 false))) (.seq (.seq (.leaf 563 false) (.leaf 564 false)) (.leaf 565
  false))) (.fin 566))) (.seq (.seq (.seq (.leaf 567 false) (.leaf 568 false)) (.leaf 569 false)) (.fin 570))) (.seq (.seq (.seq (.leaf 571 false)
  (.leaf 572 false)) (.leaf 573 false)) (.fin 574))) (.seq (.seq (.seq (.seq (.leaf 575 false) (.leaf 576 false)) (.leaf 577 false)) (.iter (.seq
  (.seq (.leaf 578 false) (.leaf 579 false)) (.leaf 580 false)) .hard)) (.fin 581)))

theorem tree9a : (buildTree Ex.tr24 false ((stored.states.getD 9 []).take 2) heap8 32).toOption =
    some (⟨heapm9, setsm9, 65535, 65535, []⟩, rootm9, 34) := by decide +kernel

theorem tree9b : (buildTreeRest Ex.tr24 false ((stored.states.getD 9 []).drop 2) ⟨heapm9, setsm9, 65535, 65535, []⟩ rootm9 34).toOption =
    some (⟨heap9, sets9, 65535, 65535, []⟩, root9, 39) := by decide +kernel

theorem dfa9 : (Slim.dfa Ex.tr24 false id heap9 sets9 65535 65535 root9 [1, 2, 3, 4, 5, 6, 7, 8, 9, 10, 11, 12, 13, 14, 15, 16, 17, 18, 19, 20, 21, 22, 23, 24, 25, 26, 27, 28, 29, 30, 31, 32]).toOption.map
    (fun s => (decide (s.seen.length < 60000), s.used)) = some (true, [1, 2, 3, 4, 5, 6, 7, 8, 9, 10, 11, 12, 13, 14, 15, 16, 17, 18, 19, 20, 21, 22, 23, 24, 25, 26, 27, 28, 29, 30, 31, 32, 33, 34, 35, 36, 37, 38, 39]) := by decide +kernel

theorem part9 : Slim.loop Ex.tr24 id false false [stored.states.getD 9 []] [36] (heap8, [1, 2, 3, 4, 5, 6, 7, 8, 9, 10, 11, 12, 13, 14, 15, 16, 17, 18, 19, 20, 21, 22, 23, 24, 25, 26, 27, 28, 29, 30, 31, 32], 32) =
    .ok (heap9, [1, 2, 3, 4, 5, 6, 7, 8, 9, 10, 11, 12, 13, 14, 15, 16, 17, 18, 19, 20, 21, 22, 23, 24, 25, 26, 27, 28, 29, 30, 31, 32, 33, 34, 35, 36, 37, 38, 39], 39) :=
  loop_one (n := 1) (by decide) (by decide +kernel) tree9a tree9b (by decide +kernel) dfa9

theorem loop_snoc {rss : List (List Rule)} {rs : List Rule} {fs : List Nat} {f : Nat} {a b c : Slim.B} (hl : rss.length = fs.length)
    (h1 : ∀ gs, Slim.loop Ex.tr24 id false false rss (fs ++ gs) a = .ok b) (h2 : Slim.loop Ex.tr24 id false false [rs] [f] b = .ok c) :
    ∀ gs, Slim.loop Ex.tr24 id false false (rss ++ [rs]) (fs ++ [f] ++ gs) a = .ok c := by
  intro gs
  rw [Slim.loop_append, List.append_assoc, h1, hl, List.drop_left]
  exact h2

theorem loop_any : ∀ (rss : List (List Rule)) (fs gs : List Nat) (a : Slim.B), rss.length = fs.length →
    Slim.loop Ex.tr24 id false false rss (fs ++ gs) a = Slim.loop Ex.tr24 id false false rss fs a
  | [], _, _, _, _ => rfl
  | rs :: rss, [], _, _, h => by cases h
  | rs :: rss, f :: fs, gs, a, h => by
    simp only [Slim.loop, List.cons_append, List.headD_cons, List.tail_cons]
    simp only [loop_any rss fs gs _ (Nat.succ.inj h)]

theorem stored_states : stored.states = stored.states.take 5 ++ [stored.states.getD 5 []] ++ [stored.states.getD 6 []] ++ [stored.states.getD 7 []] ++
    [stored.states.getD 8 []] ++ [stored.states.getD 9 []] := by decide +kernel

theorem loop_all : Slim.loop Ex.tr24 id false false stored.states stored.features ([], [], 0) = .ok (heap9, [1, 2, 3, 4, 5, 6, 7, 8, 9, 10, 11, 12, 13, 14, 15, 16, 17, 18, 19, 20, 21, 22, 23, 24, 25, 26, 27, 28, 29, 30, 31, 32, 33, 34, 35, 36, 37, 38, 39], 39) := by
  have h0 : ∀ gs, Slim.loop Ex.tr24 id false false (stored.states.take 5) (stored.features.take 5 ++ gs) ([], [], 0) = _ := fun gs =>
    (loop_any _ _ gs _ (by decide)).trans (opt_ok part0)
  have h5 := loop_snoc (by decide) h0 part5
  have h6 := loop_snoc (by decide) h5 (opt_ok part6)
  have h7 := loop_snoc (by decide) h6 part7
  have h8 := loop_snoc (by decide) h7 (opt_ok part8)
  have h9 := loop_snoc (by decide) h8 part9 []
  rw [← stored_states] at h9
  exact h9

/-- The generator does not throw on the rules of the example. -/
theorem temp_any : (∃ sm, buildTemp Ex.tr24 id obj.rules = .ok sm) ∨ (∃ m, buildTemp Ex.tr24 id obj.rules = .error (.ub m)) ∨
    buildTemp Ex.tr24 id obj.rules = .error .fuel := by
  rw [obj_rules]
  exact Slim.temp_ok (R := stored) loop_all (opt_ok (by decide +kernel))

end Lexertl.Json
