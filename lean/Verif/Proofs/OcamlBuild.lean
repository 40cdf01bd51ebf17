import Verif.Proofs.OcamlRules
import Verif.Proofs.Slim

/-
The generator returns for the rules of the OCaml example: the slim generator of `Proofs/Slim` is
run by the kernel, with the values between the steps written out.
-/
set_option maxRecDepth 100000
set_option Elab.async false

namespace Lexertl.Ocaml
open Spec Props

theorem opt_ok {α : Type} {x : M α} {a : α} (h : x.toOption = some a) : x = .ok a := by
  cases x with
  | ok b => exact congrArg _ (Option.some.inj h)
  | error e => cases h

def stored0 : List Rule :=   [⟨[⟨.begin, [], []⟩, ⟨.charset, [], [(65, 90), (95, 95), (97, 122)]⟩, ⟨.charset, [], [(39, 39), (48, 57), (65, 90), (95,
  95), (97, 122)]⟩, ⟨.zeroormore, [], []⟩, ⟨.end_, [], []⟩], 1, 65535, 0, 65535, false⟩,    ⟨[⟨.begin, [], []⟩, ⟨.charset, [], [(45, 45)]⟩, ⟨.opt, [],
  []⟩, ⟨.openparen, [], []⟩, ⟨.charset, [], [(48, 57)]⟩, ⟨.charset, [], [(43, 43), (48, 57)]⟩, ⟨.zeroormore, [], []⟩, ⟨.or_, [], []⟩, ⟨.charset, [],
  [(48, 48)]⟩, ⟨.openparen, [], []⟩, ⟨.charset, [], [(88, 88), (120, 120)]⟩, ⟨.charset, [], [(48, 57), (65, 70), (97, 102)]⟩, ⟨.charset, [], [(48,
  57), (65, 70), (95, 95), (97, 102)]⟩, ⟨.zeroormore, [], []⟩, ⟨.or_, [], []⟩, ⟨.charset, [], [(79, 79), (111, 111)]⟩, ⟨.charset, [], [(48, 55)]⟩,
  ⟨.charset, [], [(48, 55), (95, 95)]⟩, ⟨.zeroormore, [], []⟩, ⟨.or_, [], []⟩, ⟨.charset, [], [(66, 66), (98, 98)]⟩, ⟨.charset, [], [(48, 49)]⟩,
  ⟨.charset, [], [(48, 49), (95, 95)]⟩, ⟨.zeroormore, [], []⟩, ⟨.closeparen, [], []⟩, ⟨.closeparen, [], []⟩, ⟨.end_, [], []⟩], 2, 65535, 0, 65535,
  false⟩,    ⟨[⟨.begin, [], []⟩, ⟨.charset, [], [(45, 45)]⟩, ⟨.opt, [], []⟩, ⟨.charset, [], [(48, 57)]⟩, ⟨.charset, [], [(48, 57), (95, 95)]⟩,
  ⟨.zeroormore, [], []⟩, ⟨.openparen, [], []⟩, ⟨.charset, [], [(46, 46)]⟩, ⟨.charset, [], [(45, 45), (48, 57)]⟩, ⟨.closeparen, [], []⟩, ⟨.opt, [],
  []⟩, ⟨.openparen, [], []⟩, ⟨.charset, [], [(69, 69), (101, 101)]⟩, ⟨.charset, [], [(43, 43), (45, 45)]⟩, ⟨.opt, [], []⟩, ⟨.charset, [], [(48, 57)]⟩,
  ⟨.charset, [], [(48, 57), (95, 95)]⟩, ⟨.zeroormore, [], []⟩, ⟨.closeparen, [], []⟩, ⟨.opt, [], []⟩, ⟨.end_, [], []⟩], 3, 65535, 0, 65535, false⟩,   
  ⟨[⟨.begin, [], []⟩, ⟨.charset, [], [(39, 39)]⟩, ⟨.charset, [], [(0, 38), (40, 255)]⟩, ⟨.or_, [], []⟩, ⟨.openparen, [], [(40, 40)]⟩, ⟨.charset, [],
  [(34, 34), (39, 39), (98, 98), (110, 110), (114, 114), (116, 116)]⟩, ⟨.or_, [], []⟩, ⟨.charset, [], [(48, 57)]⟩, ⟨.repeatn, [51], []⟩, ⟨.or_, [],
  []⟩, ⟨.charset, [], [(120, 120)]⟩, ⟨.charset, [], [(48, 57), (65, 70), (97, 102)]⟩, ⟨.repeatn, [50], []⟩, ⟨.closeparen, [], [(41, 41)]⟩, ⟨.charset,
  [], [(39, 39)]⟩, ⟨.end_, [], []⟩], 4, 65535, 0, 65535, false⟩,    ⟨[⟨.begin, [], []⟩, ⟨.charset, [], [(40, 40)]⟩, ⟨.charset, [], [(91, 91)]⟩,
  ⟨.charset, [], [(94, 94)]⟩, ⟨.charset, [], [(34, 34)]⟩, ⟨.charset, [], [(93, 93)]⟩, ⟨.charset, [], [(124, 124)]⟩, ⟨.charset, [], [(123, 123)]⟩,
  ⟨.charset, [], [(69, 69)]⟩, ⟨.charset, [], [(83, 83)]⟩, ⟨.charset, [], [(67, 67)]⟩, ⟨.charset, [], [(65, 65)]⟩, ⟨.charset, [], [(80, 80)]⟩,
  ⟨.charset, [], [(69, 69)]⟩, ⟨.charset, [], [(95, 95)]⟩, ⟨.charset, [], [(83, 83)]⟩, ⟨.charset, [], [(69, 69)]⟩, ⟨.charset, [], [(81, 81)]⟩,
  ⟨.charset, [], [(85, 85)]⟩, ⟨.charset, [], [(69, 69)]⟩, ⟨.charset, [], [(78, 78)]⟩, ⟨.charset, [], [(67, 67)]⟩, ⟨.charset, [], [(69, 69)]⟩,
  ⟨.charset, [], [(125, 125)]⟩, ⟨.charset, [], [(41, 41)]⟩, ⟨.charset, [], [(42, 42)]⟩, ⟨.end_, [], []⟩], 5, 65535, 0, 65535, false⟩,    ⟨[⟨.begin,
  [], []⟩, ⟨.charset, [], [(36, 38), (42, 43), (45, 45), (47, 47), (60, 62), (64, 64), (94, 94), (124, 124)]⟩, ⟨.charset, [], [(33, 33), (36, 38),
  (42, 43), (45, 47), (58, 58), (60, 64), (94, 94), (124, 124), (126, 126)]⟩, ⟨.zeroormore, [], []⟩, ⟨.end_, [], []⟩], 8, 65535, 0, 65535, false⟩,   
  ⟨[⟨.begin, [], []⟩, ⟨.charset, [], [(33, 33), (63, 63), (126, 126)]⟩, ⟨.charset, [], [(33, 33), (36, 38), (42, 43), (45, 47), (58, 58), (60, 64),
  (94, 94), (124, 124), (126, 126)]⟩, ⟨.zeroormore, [], []⟩, ⟨.end_, [], []⟩], 9, 65535, 0, 65535, false⟩,    ⟨[⟨.begin, [], []⟩, ⟨.charset, [], [(33,
  33), (36, 38), (42, 43), (45, 47), (58, 58), (60, 64), (94, 94), (124, 124), (126, 126)]⟩, ⟨.end_, [], []⟩], 10, 65535, 0, 65535, false⟩,   
  ⟨[⟨.begin, [], []⟩, ⟨.charset, [], [(35, 35)]⟩, ⟨.charset, [], [(48, 57)]⟩, ⟨.oneormore, [], []⟩, ⟨.openparen, [], []⟩, ⟨.charset, [], [(40, 40)]⟩,
  ⟨.charset, [], [(91, 91)]⟩, ⟨.charset, [], [(94, 94)]⟩, ⟨.charset, [], [(34, 34)]⟩, ⟨.charset, [], [(93, 93)]⟩, ⟨.charset, [], [(124, 124)]⟩,
  ⟨.charset, [], [(123, 123)]⟩, ⟨.charset, [], [(69, 69)]⟩, ⟨.charset, [], [(83, 83)]⟩, ⟨.charset, [], [(67, 67)]⟩, ⟨.charset, [], [(65, 65)]⟩,
  ⟨.charset, [], [(80, 80)]⟩, ⟨.charset, [], [(69, 69)]⟩, ⟨.charset, [], [(95, 95)]⟩, ⟨.charset, [], [(83, 83)]⟩, ⟨.charset, [], [(69, 69)]⟩,
  ⟨.charset, [], [(81, 81)]⟩, ⟨.charset, [], [(85, 85)]⟩, ⟨.charset, [], [(69, 69)]⟩, ⟨.charset, [], [(78, 78)]⟩, ⟨.charset, [], [(67, 67)]⟩,
  ⟨.charset, [], [(69, 69)]⟩, ⟨.charset, [], [(125, 125)]⟩, ⟨.charset, [], [(41, 41)]⟩, ⟨.charset, [], [(42, 42)]⟩, ⟨.closeparen, [], []⟩, ⟨.opt, [],
  []⟩, ⟨.end_, [], []⟩], 11, 65535, 0, 65535, false⟩,    ⟨[⟨.begin, [], []⟩, ⟨.charset, [], [(40, 40)]⟩, ⟨.charset, [], [(42, 42)]⟩, ⟨.end_, [], []⟩],
  0, 65535, 1, 0, false⟩,    ⟨[⟨.begin, [], []⟩, ⟨.charset, [], [(9, 10), (32, 32)]⟩, ⟨.oneormore, [], []⟩, ⟨.end_, [], []⟩], 65534, 65535, 0, 65535,
  false⟩]

def stored1 : List Rule :=   [⟨[⟨.begin, [], []⟩, ⟨.charset, [], [(40, 40)]⟩, ⟨.charset, [], [(42, 42)]⟩, ⟨.end_, [], []⟩], 0, 65535, 1, 1, false⟩,   
  ⟨[⟨.begin, [], []⟩, ⟨.charset, [], [(42, 42)]⟩, ⟨.charset, [], [(41, 41)]⟩, ⟨.end_, [], []⟩], 12, 65535, 65535, 65535, true⟩,    ⟨[⟨.begin, [], []⟩,
  ⟨.charset, [], [(0, 39), (41, 41), (43, 255)]⟩, ⟨.oneormore, [], []⟩, ⟨.or_, [], []⟩, ⟨.charset, [], [(40, 40)]⟩, ⟨.or_, [], []⟩, ⟨.charset, [],
  [(42, 42)]⟩, ⟨.end_, [], []⟩], 0, 65535, 1, 65535, false⟩]

def stored : Rules := ⟨[stored0, stored1], [44, 40], 0, false, false⟩

theorem obj_rules : (Ex.runs calls Ex.obj0).rules = stored := by decide +kernel

/-- One lexer state, with its tree in two parts. -/
theorem loop_one {rs : List Rule} {f : Nat} {n : Nat} {heap : Heap} {used : List Nat} {uid : Nat} {q p : PState} {qr root : Tree} {qu uid' : Nat}
    {used' : List Nat} (hf : hasBit f 1 = false) (hn : rs.take (n + 1) ≠ []) (h1 : (buildTree Ex.tr false (rs.take (n + 1)) heap uid).toOption = some (q, qr, qu))
    (h2 : (buildTreeRest Ex.tr false (rs.drop (n + 1)) q qr qu).toOption = some (p, root, uid'))
    (h3 : (checkZeroLen false p.heap root).toOption = some ())
    (h4 : (Slim.dfa Ex.tr false id p.heap p.charsets p.crId p.nlId root used).toOption.map (fun s => (decide (s.seen.length < 60000), s.used)) = some (true, used'))
    (rss : List (List Rule)) (fs : List Nat) :
    Slim.loop Ex.tr id false false (rs :: rss) (f :: fs) (heap, used, uid) = Slim.loop Ex.tr id false false rss fs (p.heap, used', uid') := by
  have ht : buildTree Ex.tr false rs heap uid = .ok (p, root, uid') := by
    cases rs with
    | nil => exact absurd rfl hn
    | cons r rs =>
      have h1' := opt_ok h1
      have h2' := opt_ok h2
      simp only [List.take_succ_cons, List.drop_succ_cons, buildTree] at h1' h2' ⊢
      rw [← List.take_append_drop n rs]
      simp only [Slim.tree_append]
      rw [← bind_assoc, h1']
      exact h2'
  cases hd : Slim.dfa Ex.tr false id p.heap p.charsets p.crId p.nlId root used with
  | error e => rw [hd] at h4; cases h4
  | ok s =>
    rw [hd] at h4
    have h5 := Option.some.inj h4
    simp only [Prod.mk.injEq, decide_eq_true_eq] at h5
    conv => lhs; unfold Slim.loop
    rw [if_neg (fun h => hn (by rw [h]; rfl))]
    simp only [List.headD_cons, hf, ht, bind, Except.bind, opt_ok h3, hd, List.tail_cons]
    rw [if_neg (by have : Ex.tr.npos = 65535 := rfl
                   omega), h5.2]

def heapm : Heap := [⟨.leaf 0 .yes, [1, 2]⟩, ⟨.leaf 1 .hard, [1, 2]⟩, ⟨.fin 1 65535 1 0 65535 false .yes, []⟩, ⟨.leaf 2 .hard, [5, 7]⟩, ⟨.leaf 65535
  .hard, []⟩, ⟨.leaf 3 .yes, [6, 17]⟩, ⟨.leaf 4 .hard, [6, 17]⟩, ⟨.leaf 5 .yes, [8, 11, 14]⟩, ⟨.leaf 6 .yes, [9]⟩, ⟨.leaf 7 .yes, [10, 17]⟩, ⟨.leaf 8
  .hard, [10, 17]⟩, ⟨.leaf 9 .yes, [12]⟩, ⟨.leaf 10 .yes, [13, 17]⟩, ⟨.leaf 11 .hard, [13, 17]⟩, ⟨.leaf 12 .yes, [15]⟩, ⟨.leaf 13 .yes, [16, 17]⟩,
  ⟨.leaf 14 .hard, [16, 17]⟩, ⟨.fin 2 65535 2 0 65535 false .yes, []⟩, ⟨.leaf 2 .hard, [20]⟩, ⟨.leaf 65535 .hard, []⟩, ⟨.leaf 3 .yes, [21, 22, 25,
  31]⟩, ⟨.leaf 15 .hard, [21, 22, 25, 31]⟩, ⟨.leaf 16 .hard, [23]⟩, ⟨.leaf 17 .yes, [25, 31]⟩, ⟨.leaf 65535 .hard, []⟩, ⟨.leaf 18 .hard, [26, 28]⟩,
  ⟨.leaf 19 .hard, [28]⟩, ⟨.leaf 65535 .hard, []⟩, ⟨.leaf 3 .yes, [29, 31]⟩, ⟨.leaf 15 .hard, [29, 31]⟩, ⟨.leaf 65535 .hard, []⟩, ⟨.fin 3 65535 3 0
  65535 false .yes, []⟩, ⟨.leaf 20 .yes, [33]⟩, ⟨.leaf 21 .yes, [42]⟩, ⟨.leaf 22 .yes, [41]⟩, ⟨.leaf 3 .yes, [36]⟩, ⟨.leaf 3 .yes, [37]⟩, ⟨.leaf 3
  .yes, [41]⟩, ⟨.leaf 23 .yes, [39]⟩, ⟨.leaf 7 .yes, [40]⟩, ⟨.leaf 7 .yes, [41]⟩, ⟨.leaf 20 .yes, [42]⟩, ⟨.fin 4 65535 4 0 65535 false .yes, []⟩,
  ⟨.leaf 24 .yes, [44]⟩, ⟨.leaf 25 .yes, [45]⟩, ⟨.leaf 26 .yes, [46]⟩, ⟨.leaf 27 .yes, [47]⟩, ⟨.leaf 28 .yes, [48]⟩, ⟨.leaf 29 .yes, [49]⟩, ⟨.leaf 30
  .yes, [50]⟩, ⟨.leaf 31 .yes, [51]⟩, ⟨.leaf 32 .yes, [52]⟩, ⟨.leaf 33 .yes, [53]⟩, ⟨.leaf 34 .yes, [54]⟩, ⟨.leaf 35 .yes, [55]⟩, ⟨.leaf 31 .yes,
  [56]⟩, ⟨.leaf 36 .yes, [57]⟩, ⟨.leaf 32 .yes, [58]⟩, ⟨.leaf 31 .yes, [59]⟩, ⟨.leaf 37 .yes, [60]⟩, ⟨.leaf 38 .yes, [61]⟩, ⟨.leaf 31 .yes, [62]⟩,
  ⟨.leaf 39 .yes, [63]⟩, ⟨.leaf 33 .yes, [64]⟩, ⟨.leaf 31 .yes, [65]⟩, ⟨.leaf 40 .yes, [66]⟩, ⟨.leaf 41 .yes, [67]⟩, ⟨.leaf 42 .yes, [68]⟩, ⟨.fin 5
  65535 5 0 65535 false .yes, []⟩]

def setsm : CharsetMap := [([(0, 38), (40, 255)], 21), ([(34, 34)], 27), ([(34, 34), (39, 39), (98, 98), (110, 110), (114, 114), (116, 116)], 22),
  ([(39, 39)], 20), ([(39, 39), (48, 57), (65, 90), (95, 95), (97, 122)], 1), ([(40, 40)], 24), ([(41, 41)], 41), ([(42, 42)], 42), ([(43, 43), (45,
  45)], 19), ([(43, 43), (48, 57)], 4), ([(45, 45)], 2), ([(45, 45), (48, 57)], 17), ([(46, 46)], 16), ([(48, 48)], 5), ([(48, 49)], 13), ([(48, 49),
  (95, 95)], 14), ([(48, 55)], 10), ([(48, 55), (95, 95)], 11), ([(48, 57)], 3), ([(48, 57), (65, 70), (95, 95), (97, 102)], 8), ([(48, 57), (65, 70),
  (97, 102)], 7), ([(48, 57), (95, 95)], 15), ([(65, 65)], 34), ([(65, 90), (95, 95), (97, 122)], 0), ([(66, 66), (98, 98)], 12), ([(67, 67)], 33),
  ([(69, 69)], 31), ([(69, 69), (101, 101)], 18), ([(78, 78)], 39), ([(79, 79), (111, 111)], 9), ([(80, 80)], 35), ([(81, 81)], 37), ([(83, 83)], 32),
  ([(85, 85)], 38), ([(88, 88), (120, 120)], 6), ([(91, 91)], 25), ([(93, 93)], 28), ([(94, 94)], 26), ([(95, 95)], 36), ([(120, 120)], 23), ([(123,
  123)], 30), ([(124, 124)], 29), ([(125, 125)], 40)]

def rootm : Tree := (.sel (.sel (.sel (.sel (.seq (.seq (.leaf 0 false) (.iter (.leaf 1 false) .hard)) (.fin 2)) (.seq (.seq (.sel (.leaf 3 false)
  (.leaf 4 true)) (.sel (.seq (.leaf 5 false) (.iter (.leaf 6 false) .hard)) (.seq (.leaf 7 false) (.sel (.sel (.seq (.seq (.leaf 8 false) (.leaf 9
  false)) (.iter (.leaf 10 false) .hard)) (.seq (.seq (.leaf 11 false) (.leaf 12 false)) (.iter (.leaf 13 false) .hard))) (.seq (.seq (.leaf 14 false)
  (.leaf 15 false)) (.iter (.leaf 16 false) .hard)))))) (.fin 17))) (.seq (.seq (.seq (.seq (.seq (.sel (.leaf 18 false) (.leaf 19 true)) (.leaf 20
  false)) (.iter (.leaf 21 false) .hard)) (.sel (.seq (.leaf 22 false) (.leaf 23 false)) (.leaf 24 true))) (.sel (.seq (.seq (.seq (.leaf 25 false)
  (.sel (.leaf 26 false) (.leaf 27 true))) (.leaf 28 false)) (.iter (.leaf 29 false) .hard)) (.leaf 30 true))) (.fin 31))) (.seq (.sel (.seq (.leaf 32
  false) (.leaf 33 false)) (.seq (.sel (.sel (.leaf 34 false) (.seq (.seq (.leaf 35 false) (.leaf 36 false)) (.leaf 37 false))) (.seq (.leaf 38 false)
  (.seq (.leaf 39 false) (.leaf 40 false)))) (.leaf 41 false))) (.fin 42))) (.seq (.seq (.seq (.seq (.seq (.seq (.seq (.seq (.seq (.seq (.seq (.seq
  (.seq (.seq (.seq (.seq (.seq (.seq (.seq (.seq (.seq (.seq (.seq (.seq (.seq (.leaf 43 false) (.leaf 44 false)) (.leaf 45 false)) (.leaf 46 false))
  (.leaf 47 false)) (.leaf 48 false)) (.leaf 49 false)) (.leaf 50 false)) (.leaf 51 false)) (.leaf 52 false)) (.leaf 53 false)) (.leaf 54 false))
  (.leaf 55 false)) (.leaf 56 false)) (.leaf 57 false)) (.leaf 58 false)) (.leaf 59 false)) (.leaf 60 false)) (.leaf 61 false)) (.leaf 62 false))
  (.leaf 63 false)) (.leaf 64 false)) (.leaf 65 false)) (.leaf 66 false)) (.leaf 67 false)) (.fin 68)))

def heap0 : Heap := [⟨.leaf 0 .yes, [1, 2]⟩, ⟨.leaf 1 .hard, [1, 2]⟩, ⟨.fin 1 65535 1 0 65535 false .yes, []⟩, ⟨.leaf 2 .hard, [5, 7]⟩, ⟨.leaf 65535
  .hard, []⟩, ⟨.leaf 3 .yes, [6, 17]⟩, ⟨.leaf 4 .hard, [6, 17]⟩, ⟨.leaf 5 .yes, [8, 11, 14]⟩, ⟨.leaf 6 .yes, [9]⟩, ⟨.leaf 7 .yes, [10, 17]⟩, ⟨.leaf 8
  .hard, [10, 17]⟩, ⟨.leaf 9 .yes, [12]⟩, ⟨.leaf 10 .yes, [13, 17]⟩, ⟨.leaf 11 .hard, [13, 17]⟩, ⟨.leaf 12 .yes, [15]⟩, ⟨.leaf 13 .yes, [16, 17]⟩,
  ⟨.leaf 14 .hard, [16, 17]⟩, ⟨.fin 2 65535 2 0 65535 false .yes, []⟩, ⟨.leaf 2 .hard, [20]⟩, ⟨.leaf 65535 .hard, []⟩, ⟨.leaf 3 .yes, [21, 22, 25,
  31]⟩, ⟨.leaf 15 .hard, [21, 22, 25, 31]⟩, ⟨.leaf 16 .hard, [23]⟩, ⟨.leaf 17 .yes, [25, 31]⟩, ⟨.leaf 65535 .hard, []⟩, ⟨.leaf 18 .hard, [26, 28]⟩,
  ⟨.leaf 19 .hard, [28]⟩, ⟨.leaf 65535 .hard, []⟩, ⟨.leaf 3 .yes, [29, 31]⟩, ⟨.leaf 15 .hard, [29, 31]⟩, ⟨.leaf 65535 .hard, []⟩, ⟨.fin 3 65535 3 0
  65535 false .yes, []⟩, ⟨.leaf 20 .yes, [33]⟩, ⟨.leaf 21 .yes, [42]⟩, ⟨.leaf 22 .yes, [41]⟩, ⟨.leaf 3 .yes, [36]⟩, ⟨.leaf 3 .yes, [37]⟩, ⟨.leaf 3
  .yes, [41]⟩, ⟨.leaf 23 .yes, [39]⟩, ⟨.leaf 7 .yes, [40]⟩, ⟨.leaf 7 .yes, [41]⟩, ⟨.leaf 20 .yes, [42]⟩, ⟨.fin 4 65535 4 0 65535 false .yes, []⟩,
  ⟨.leaf 24 .yes, [44]⟩, ⟨.leaf 25 .yes, [45]⟩, ⟨.leaf 26 .yes, [46]⟩, ⟨.leaf 27 .yes, [47]⟩, ⟨.leaf 28 .yes, [48]⟩, ⟨.leaf 29 .yes, [49]⟩, ⟨.leaf 30
  .yes, [50]⟩, ⟨.leaf 31 .yes, [51]⟩, ⟨.leaf 32 .yes, [52]⟩, ⟨.leaf 33 .yes, [53]⟩, ⟨.leaf 34 .yes, [54]⟩, ⟨.leaf 35 .yes, [55]⟩, ⟨.leaf 31 .yes,
  [56]⟩, ⟨.leaf 36 .yes, [57]⟩, ⟨.leaf 32 .yes, [58]⟩, ⟨.leaf 31 .yes, [59]⟩, ⟨.leaf 37 .yes, [60]⟩, ⟨.leaf 38 .yes, [61]⟩, ⟨.leaf 31 .yes, [62]⟩,
  ⟨.leaf 39 .yes, [63]⟩, ⟨.leaf 33 .yes, [64]⟩, ⟨.leaf 31 .yes, [65]⟩, ⟨.leaf 40 .yes, [66]⟩, ⟨.leaf 41 .yes, [67]⟩, ⟨.leaf 42 .yes, [68]⟩, ⟨.fin 5
  65535 5 0 65535 false .yes, []⟩, ⟨.leaf 43 .yes, [70, 71]⟩, ⟨.leaf 44 .hard, [70, 71]⟩, ⟨.fin 8 65535 6 0 65535 false .yes, []⟩, ⟨.leaf 45 .yes,
  [73, 74]⟩, ⟨.leaf 44 .hard, [73, 74]⟩, ⟨.fin 9 65535 7 0 65535 false .yes, []⟩, ⟨.leaf 44 .yes, [76]⟩, ⟨.fin 10 65535 8 0 65535 false .yes, []⟩,
  ⟨.leaf 46 .yes, [78]⟩, ⟨.leaf 3 .yes, [79, 80, 106]⟩, ⟨.leaf 3 .hard, [79, 80, 106]⟩, ⟨.leaf 24 .hard, [81]⟩, ⟨.leaf 25 .yes, [82]⟩, ⟨.leaf 26 .yes,
  [83]⟩, ⟨.leaf 27 .yes, [84]⟩, ⟨.leaf 28 .yes, [85]⟩, ⟨.leaf 29 .yes, [86]⟩, ⟨.leaf 30 .yes, [87]⟩, ⟨.leaf 31 .yes, [88]⟩, ⟨.leaf 32 .yes, [89]⟩,
  ⟨.leaf 33 .yes, [90]⟩, ⟨.leaf 34 .yes, [91]⟩, ⟨.leaf 35 .yes, [92]⟩, ⟨.leaf 31 .yes, [93]⟩, ⟨.leaf 36 .yes, [94]⟩, ⟨.leaf 32 .yes, [95]⟩, ⟨.leaf 31
  .yes, [96]⟩, ⟨.leaf 37 .yes, [97]⟩, ⟨.leaf 38 .yes, [98]⟩, ⟨.leaf 31 .yes, [99]⟩, ⟨.leaf 39 .yes, [100]⟩, ⟨.leaf 33 .yes, [101]⟩, ⟨.leaf 31 .yes,
  [102]⟩, ⟨.leaf 40 .yes, [103]⟩, ⟨.leaf 41 .yes, [104]⟩, ⟨.leaf 42 .yes, [106]⟩, ⟨.leaf 65535 .hard, []⟩, ⟨.fin 11 65535 9 0 65535 false .yes, []⟩,
  ⟨.leaf 24 .yes, [108]⟩, ⟨.leaf 42 .yes, [109]⟩, ⟨.fin 0 65535 10 1 0 false .yes, []⟩, ⟨.leaf 47 .yes, [111, 112]⟩, ⟨.leaf 47 .hard, [111, 112]⟩,
  ⟨.fin 65534 65535 11 0 65535 false .yes, []⟩]

def sets0 : CharsetMap := [([(0, 38), (40, 255)], 21), ([(9, 10), (32, 32)], 47), ([(33, 33), (36, 38), (42, 43), (45, 47), (58, 58), (60, 64), (94,
  94), (124, 124), (126, 126)], 44), ([(33, 33), (63, 63), (126, 126)], 45), ([(34, 34)], 27), ([(34, 34), (39, 39), (98, 98), (110, 110), (114, 114),
  (116, 116)], 22), ([(35, 35)], 46), ([(36, 38), (42, 43), (45, 45), (47, 47), (60, 62), (64, 64), (94, 94), (124, 124)], 43), ([(39, 39)], 20),
  ([(39, 39), (48, 57), (65, 90), (95, 95), (97, 122)], 1), ([(40, 40)], 24), ([(41, 41)], 41), ([(42, 42)], 42), ([(43, 43), (45, 45)], 19), ([(43,
  43), (48, 57)], 4), ([(45, 45)], 2), ([(45, 45), (48, 57)], 17), ([(46, 46)], 16), ([(48, 48)], 5), ([(48, 49)], 13), ([(48, 49), (95, 95)], 14),
  ([(48, 55)], 10), ([(48, 55), (95, 95)], 11), ([(48, 57)], 3), ([(48, 57), (65, 70), (95, 95), (97, 102)], 8), ([(48, 57), (65, 70), (97, 102)], 7),
  ([(48, 57), (95, 95)], 15), ([(65, 65)], 34), ([(65, 90), (95, 95), (97, 122)], 0), ([(66, 66), (98, 98)], 12), ([(67, 67)], 33), ([(69, 69)], 31),
  ([(69, 69), (101, 101)], 18), ([(78, 78)], 39), ([(79, 79), (111, 111)], 9), ([(80, 80)], 35), ([(81, 81)], 37), ([(83, 83)], 32), ([(85, 85)], 38),
  ([(88, 88), (120, 120)], 6), ([(91, 91)], 25), ([(93, 93)], 28), ([(94, 94)], 26), ([(95, 95)], 36), ([(120, 120)], 23), ([(123, 123)], 30), ([(124,
  124)], 29), ([(125, 125)], 40)]

def root0 : Tree := (.sel (.sel (.sel (.sel (.sel (.sel (.sel (.sel (.sel (.sel (.seq (.seq (.leaf 0 false) (.iter (.leaf 1 false) .hard)) (.fin 2))
  (.seq (.seq (.sel (.leaf 3 false) (.leaf 4 true)) (.sel (.seq (.leaf 5 false) (.iter (.leaf 6 false) .hard)) (.seq (.leaf 7 false) (.sel (.sel (.seq
  (.seq (.leaf 8 false) (.leaf 9 false)) (.iter (.leaf 10 false) .hard)) (.seq (.seq (.leaf 11 false) (.leaf 12 false)) (.iter (.leaf 13 false)
  .hard))) (.seq (.seq (.leaf 14 false) (.leaf 15 false)) (.iter (.leaf 16 false) .hard)))))) (.fin 17))) (.seq (.seq (.seq (.seq (.seq (.sel (.leaf
  18 false) (.leaf 19 true)) (.leaf 20 false)) (.iter (.leaf 21 false) .hard)) (.sel (.seq (.leaf 22 false) (.leaf 23 false)) (.leaf 24 true))) (.sel
  (.seq (.seq (.seq (.leaf 25 false) (.sel (.leaf 26 false) (.leaf 27 true))) (.leaf 28 false)) (.iter (.leaf 29 false) .hard)) (.leaf 30 true)))
  (.fin 31))) (.seq (.sel (.seq (.leaf 32 false) (.leaf 33 false)) (.seq (.sel (.sel (.leaf 34 false) (.seq (.seq (.leaf 35 false) (.leaf 36 false))
  (.leaf 37 false))) (.seq (.leaf 38 false) (.seq (.leaf 39 false) (.leaf 40 false)))) (.leaf 41 false))) (.fin 42))) (.seq (.seq (.seq (.seq (.seq
  (.seq (.seq (.seq (.seq (.seq (.seq (.seq (.seq (.seq (.seq (.seq (.seq (.seq (.seq (.seq (.seq (.seq (.seq (.seq (.seq (.leaf 43 false) (.leaf 44
  false)) (.leaf 45 false)) (.leaf 46 false)) (.leaf 47 false)) (.leaf 48 false)) (.leaf 49 false)) (.leaf 50 false)) (.leaf 51 false)) (.leaf 52
  false)) (.leaf 53 false)) (.leaf 54 false)) (.leaf 55 false)) (.leaf 56 false)) (.leaf 57 false)) (.leaf 58 false)) (.leaf 59 false)) (.leaf 60
  false)) (.leaf 61 false)) (.leaf 62 false)) (.leaf 63 false)) (.leaf 64 false)) (.leaf 65 false)) (.leaf 66 false)) (.leaf 67 false)) (.fin 68)))
  (.seq (.seq (.leaf 69 false) (.iter (.leaf 70 false) .hard)) (.fin 71))) (.seq (.seq (.leaf 72 false) (.iter (.leaf 73 false) .hard)) (.fin 74)))
  (.seq (.leaf 75 false) (.fin 76))) (.seq (.seq (.seq (.leaf 77 false) (.seq (.leaf 78 false) (.iter (.leaf 79 false) .hard))) (.sel (.seq (.seq
  (.seq (.seq (.seq (.seq (.seq (.seq (.seq (.seq (.seq (.seq (.seq (.seq (.seq (.seq (.seq (.seq (.seq (.seq (.seq (.seq (.seq (.seq (.leaf 80 false)
  (.leaf 81 false)) (.leaf 82 false)) (.leaf 83 false)) (.leaf 84 false)) (.leaf 85 false)) (.leaf 86 false)) (.leaf 87 false)) (.leaf 88 false))
  (.leaf 89 false)) (.leaf 90 false)) (.leaf 91 false)) (.leaf 92 false)) (.leaf 93 false)) (.leaf 94 false)) (.leaf 95 false)) (.leaf 96 false))
  (.leaf 97 false)) (.leaf 98 false)) (.leaf 99 false)) (.leaf 100 false)) (.leaf 101 false)) (.leaf 102 false)) (.leaf 103 false)) (.leaf 104 false))
  (.leaf 105 true))) (.fin 106))) (.seq (.seq (.leaf 107 false) (.leaf 108 false)) (.fin 109))) (.seq (.seq (.leaf 110 false) (.iter (.leaf 111 false)
  .hard)) (.fin 112)))

def heap1 : Heap := [⟨.leaf 0 .yes, [1, 2]⟩, ⟨.leaf 1 .hard, [1, 2]⟩, ⟨.fin 1 65535 1 0 65535 false .yes, []⟩, ⟨.leaf 2 .hard, [5, 7]⟩, ⟨.leaf 65535
  .hard, []⟩, ⟨.leaf 3 .yes, [6, 17]⟩, ⟨.leaf 4 .hard, [6, 17]⟩, ⟨.leaf 5 .yes, [8, 11, 14]⟩, ⟨.leaf 6 .yes, [9]⟩, ⟨.leaf 7 .yes, [10, 17]⟩, ⟨.leaf 8
  .hard, [10, 17]⟩, ⟨.leaf 9 .yes, [12]⟩, ⟨.leaf 10 .yes, [13, 17]⟩, ⟨.leaf 11 .hard, [13, 17]⟩, ⟨.leaf 12 .yes, [15]⟩, ⟨.leaf 13 .yes, [16, 17]⟩,
  ⟨.leaf 14 .hard, [16, 17]⟩, ⟨.fin 2 65535 2 0 65535 false .yes, []⟩, ⟨.leaf 2 .hard, [20]⟩, ⟨.leaf 65535 .hard, []⟩, ⟨.leaf 3 .yes, [21, 22, 25,
  31]⟩, ⟨.leaf 15 .hard, [21, 22, 25, 31]⟩, ⟨.leaf 16 .hard, [23]⟩, ⟨.leaf 17 .yes, [25, 31]⟩, ⟨.leaf 65535 .hard, []⟩, ⟨.leaf 18 .hard, [26, 28]⟩,
  ⟨.leaf 19 .hard, [28]⟩, ⟨.leaf 65535 .hard, []⟩, ⟨.leaf 3 .yes, [29, 31]⟩, ⟨.leaf 15 .hard, [29, 31]⟩, ⟨.leaf 65535 .hard, []⟩, ⟨.fin 3 65535 3 0
  65535 false .yes, []⟩, ⟨.leaf 20 .yes, [33]⟩, ⟨.leaf 21 .yes, [42]⟩, ⟨.leaf 22 .yes, [41]⟩, ⟨.leaf 3 .yes, [36]⟩, ⟨.leaf 3 .yes, [37]⟩, ⟨.leaf 3
  .yes, [41]⟩, ⟨.leaf 23 .yes, [39]⟩, ⟨.leaf 7 .yes, [40]⟩, ⟨.leaf 7 .yes, [41]⟩, ⟨.leaf 20 .yes, [42]⟩, ⟨.fin 4 65535 4 0 65535 false .yes, []⟩,
  ⟨.leaf 24 .yes, [44]⟩, ⟨.leaf 25 .yes, [45]⟩, ⟨.leaf 26 .yes, [46]⟩, ⟨.leaf 27 .yes, [47]⟩, ⟨.leaf 28 .yes, [48]⟩, ⟨.leaf 29 .yes, [49]⟩, ⟨.leaf 30
  .yes, [50]⟩, ⟨.leaf 31 .yes, [51]⟩, ⟨.leaf 32 .yes, [52]⟩, ⟨.leaf 33 .yes, [53]⟩, ⟨.leaf 34 .yes, [54]⟩, ⟨.leaf 35 .yes, [55]⟩, ⟨.leaf 31 .yes,
  [56]⟩, ⟨.leaf 36 .yes, [57]⟩, ⟨.leaf 32 .yes, [58]⟩, ⟨.leaf 31 .yes, [59]⟩, ⟨.leaf 37 .yes, [60]⟩, ⟨.leaf 38 .yes, [61]⟩, ⟨.leaf 31 .yes, [62]⟩,
  ⟨.leaf 39 .yes, [63]⟩, ⟨.leaf 33 .yes, [64]⟩, ⟨.leaf 31 .yes, [65]⟩, ⟨.leaf 40 .yes, [66]⟩, ⟨.leaf 41 .yes, [67]⟩, ⟨.leaf 42 .yes, [68]⟩, ⟨.fin 5
  65535 5 0 65535 false .yes, []⟩, ⟨.leaf 43 .yes, [70, 71]⟩, ⟨.leaf 44 .hard, [70, 71]⟩, ⟨.fin 8 65535 6 0 65535 false .yes, []⟩, ⟨.leaf 45 .yes,
  [73, 74]⟩, ⟨.leaf 44 .hard, [73, 74]⟩, ⟨.fin 9 65535 7 0 65535 false .yes, []⟩, ⟨.leaf 44 .yes, [76]⟩, ⟨.fin 10 65535 8 0 65535 false .yes, []⟩,
  ⟨.leaf 46 .yes, [78]⟩, ⟨.leaf 3 .yes, [79, 80, 106]⟩, ⟨.leaf 3 .hard, [79, 80, 106]⟩, ⟨.leaf 24 .hard, [81]⟩, ⟨.leaf 25 .yes, [82]⟩, ⟨.leaf 26 .yes,
  [83]⟩, ⟨.leaf 27 .yes, [84]⟩, ⟨.leaf 28 .yes, [85]⟩, ⟨.leaf 29 .yes, [86]⟩, ⟨.leaf 30 .yes, [87]⟩, ⟨.leaf 31 .yes, [88]⟩, ⟨.leaf 32 .yes, [89]⟩,
  ⟨.leaf 33 .yes, [90]⟩, ⟨.leaf 34 .yes, [91]⟩, ⟨.leaf 35 .yes, [92]⟩, ⟨.leaf 31 .yes, [93]⟩, ⟨.leaf 36 .yes, [94]⟩, ⟨.leaf 32 .yes, [95]⟩, ⟨.leaf 31
  .yes, [96]⟩, ⟨.leaf 37 .yes, [97]⟩, ⟨.leaf 38 .yes, [98]⟩, ⟨.leaf 31 .yes, [99]⟩, ⟨.leaf 39 .yes, [100]⟩, ⟨.leaf 33 .yes, [101]⟩, ⟨.leaf 31 .yes,
  [102]⟩, ⟨.leaf 40 .yes, [103]⟩, ⟨.leaf 41 .yes, [104]⟩, ⟨.leaf 42 .yes, [106]⟩, ⟨.leaf 65535 .hard, []⟩, ⟨.fin 11 65535 9 0 65535 false .yes, []⟩,
  ⟨.leaf 24 .yes, [108]⟩, ⟨.leaf 42 .yes, [109]⟩, ⟨.fin 0 65535 10 1 0 false .yes, []⟩, ⟨.leaf 47 .yes, [111, 112]⟩, ⟨.leaf 47 .hard, [111, 112]⟩,
  ⟨.fin 65534 65535 11 0 65535 false .yes, []⟩, ⟨.leaf 0 .yes, [114]⟩, ⟨.leaf 1 .yes, [115]⟩, ⟨.fin 0 65535 12 1 1 false .yes, []⟩, ⟨.leaf 1 .yes,
  [117]⟩, ⟨.leaf 2 .yes, [118]⟩, ⟨.fin 12 65535 13 65535 65535 true .yes, []⟩, ⟨.leaf 3 .yes, [120, 123]⟩, ⟨.leaf 3 .hard, [120, 123]⟩, ⟨.leaf 0 .yes,
  [123]⟩, ⟨.leaf 1 .yes, [123]⟩, ⟨.fin 0 65535 14 1 65535 false .yes, []⟩]

theorem treea : (buildTree Ex.tr false (stored0.take 5) [] 0).toOption = some (⟨heapm, setsm, 65535, 65535, []⟩, rootm, 5) := by decide +kernel

theorem treeb : (buildTreeRest Ex.tr false (stored0.drop 5) ⟨heapm, setsm, 65535, 65535, []⟩ rootm 5).toOption =
    some (⟨heap0, sets0, 65535, 65535, []⟩, root0, 11) := by decide +kernel

theorem dfa0 : (Slim.dfa Ex.tr false id heap0 sets0 65535 65535 root0 []).toOption.map (fun s => (decide (s.seen.length < 60000), s.used)) =
    some (true, [1, 2, 3, 4, 5, 6, 7, 8, 9, 10, 11]) := by decide +kernel

theorem part1 : (Slim.loop Ex.tr id false false [stored1] [40] (heap0, [1, 2, 3, 4, 5, 6, 7, 8, 9, 10, 11], 11)).toOption = some (heap1, [1, 2, 3, 4, 5, 6, 7, 8, 9, 10, 11, 12, 13, 14], 14) := by decide +kernel

theorem loop_all : Slim.loop Ex.tr id false false stored.states stored.features ([], [], 0) = .ok (heap1, [1, 2, 3, 4, 5, 6, 7, 8, 9, 10, 11, 12, 13, 14], 14) :=
  (loop_one (n := 4) (by decide) (by decide) treea treeb (by decide +kernel) dfa0 [stored1] [40]).trans (opt_ok part1)

/-- The generator does not throw on the rules of the example. -/
theorem temp_any : (∃ sm, buildTemp Ex.tr id (Ex.runs calls Ex.obj0).rules = .ok sm) ∨ (∃ m, buildTemp Ex.tr id (Ex.runs calls Ex.obj0).rules = .error (.ub m)) ∨
    buildTemp Ex.tr id (Ex.runs calls Ex.obj0).rules = .error .fuel := by
  rw [obj_rules]
  exact Slim.temp_ok (R := stored) loop_all (opt_ok (by decide +kernel))

end Lexertl.Ocaml
