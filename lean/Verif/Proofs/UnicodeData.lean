import Verif.Spec.Unicode

/-
What has to be checked entry by entry in the Unicode property tables: names differ, ranges
are ranges, references lead somewhere, members of a family are disjoint.
-/
namespace Lexertl.Uni
open Spec Unicode

/-! ### Names -/

/-- A number for a name. -/
def code : List Nat → Nat → Nat
  | [], n => n
  | c :: cs, n => code cs ((n * 256 + c) % 1000003)

/-- The number is as expected, and the characters can be in a name. -/
def codeOk : List Nat → Nat → Nat → Bool
  | [], n, k => Nat.beq n k
  | c :: cs, n, k => Nat.ble c 124 && codeOk cs ((n * 256 + c) % 1000003) k

theorem codeOk_spec : ∀ (cs : List Nat) (n k : Nat), codeOk cs n k = true → code cs n = k ∧ ∀ c ∈ cs, c ≤ 124
  | [], n, k, h => ⟨Nat.eq_of_beq_eq_true h, by simp⟩
  | c :: cs, n, k, h => by
    simp only [codeOk, Bool.and_eq_true, Nat.ble_eq] at h
    obtain ⟨h1, h2⟩ := codeOk_spec cs _ k h.2
    refine ⟨h1, fun d hd => ?_⟩
    simp only [List.mem_cons] at hd
    rcases hd with rfl | hd
    · exact h.1
    · exact h2 d hd

def codes : List Nat :=
  [67, 17251, 17254, 17263, 17267, 76, 19523, 19564, 19565, 19567, 19572, 19573, 77, 19811, 19813, 19822, 78, 20068, 20076,
   20079, 80, 20579, 20580, 20581, 20582, 20585, 20591, 20595, 83, 21347, 21355, 21357, 21359, 90, 23148, 23152, 23155, 780867,
   895250, 413883, 413884, 569581, 177285, 45677, 688962, 81015, 93257, 366312, 456115, 733969, 9882, 913093, 381368, 291341,
   326785, 196368, 708164, 517756, 517755, 520144, 674794, 851685, 780960, 168227, 986527, 375901, 390225, 873677, 669361,
   143126, 165901, 415566, 247101, 10661, 248238, 529528, 205400, 754988, 975186, 547738, 686544, 924243, 820404, 22750,
   949747, 835968, 354545, 240488, 566779, 778045, 833885, 952868, 610023, 243025, 575333, 491095, 171970, 263826, 671148,
   37565, 697924, 72127, 655871, 107051, 140827, 915259, 317296, 150626, 368256, 192242, 176465, 716380, 413583, 23950, 896230,
   801351, 266826, 408623, 186055, 652588, 99894, 189740, 411152, 868444, 503956, 547664, 598362, 708343, 531551, 708344,
   598363, 1092, 247810, 975174, 413885, 366366, 307814, 854546, 704360, 697922, 535730, 444034, 630997, 745643, 789602,
   199829, 43936, 445068, 108748, 907727, 302581, 384691, 395105, 411394, 812477, 581413, 775454, 556592, 698949, 508304,
   995959, 821255, 697923, 810199, 905066, 413886, 736726, 367978, 314117, 778983, 448874, 218927, 854131, 663869, 503025,
   13286, 931316, 13285, 863925, 680711, 810065, 413887, 548610, 901337, 401021, 663870, 199305, 616683, 22787, 387850, 537507,
   24594, 823462, 221871, 398246, 401402, 769526, 344757, 823463, 993689, 137764, 822560, 764360, 102908, 248029, 270082,
   354843, 47651, 836012, 777568, 639076, 5602, 905019, 375669, 346762, 581364, 334567, 269556, 416503, 905235, 591528, 80104,
   853527, 325067, 413888, 424975, 68291, 633132, 110964, 626420, 518666, 824819, 38165, 436361, 60948, 749153, 725475, 171024,
   703108, 962460, 868031, 931073, 973100, 361528, 399929, 551377, 904826, 54326, 115265, 517757, 348042, 376809, 766082,
   218704, 5069, 457464, 198208, 295231, 439203, 904446, 702374, 964085, 887492, 308503, 786408, 673316, 554248, 289149, 88027,
   472533, 162485, 146650, 857756, 13287, 380567, 205344, 621060, 922088, 838223, 504307, 367432, 585873, 377081, 329798,
   823260, 162514, 259262, 694586, 346093, 337940, 265615, 179249, 695518, 6310, 480111, 963322, 511646, 173194, 740984,
   269224, 203392, 705307, 851911, 617853, 238394, 235789, 198138, 58470, 949056, 226245, 944390, 595972, 768510, 471482,
   198669, 115057, 195562, 60346, 628979, 654365, 49699, 654364, 310151, 196339, 108474, 936170, 944294, 483603, 709822,
   641202, 650669, 532191, 637654, 774073, 752297, 828607, 900893, 518603, 413889, 219725, 697925, 517841, 606748, 920948,
   721077, 607929, 781383, 810066, 118971, 116627, 440038, 728755, 216754, 387724, 645191, 587954, 563200, 64134, 36193,
   204492, 675065, 679618, 687036, 859948, 708345, 684798, 101160, 533017, 84582, 581414, 581415, 581416, 581417, 581418,
   581421, 695282, 581419, 581420, 581422, 685923, 389111, 665600, 665601, 762884, 152622, 419725, 175263, 119741, 934153,
   244524, 456453, 936486, 910083, 646487, 367393, 137275, 198497, 898761, 794627, 363452, 669007, 988742, 277306, 148232,
   880500, 703371, 508417, 990128, 18960, 807663, 841335, 502476, 45535, 834447, 553057, 291565, 406038, 851601, 861906,
   509724, 876928, 976765, 282957, 551080, 764093, 746595, 446899, 645009, 911942, 534389, 586600, 605114, 509449, 789587,
   688946, 684249, 792097, 67714, 897412, 953261, 83421, 901065, 498887, 228745, 256454, 639505, 361918, 797368, 467573,
   972359, 520574, 712128, 482222, 328786, 664421, 104258, 51729, 456244, 112442, 213033, 78496, 78497, 768014, 488948, 266113,
   657875, 150942, 751690, 168061, 474529, 666279, 594753, 428340, 792933, 367631, 76078, 676861, 540565, 934543, 232558,
   121617, 280196, 218794, 988980, 205027, 322173, 317835, 61204, 185361, 842596, 878558, 193992, 790997, 579622, 648589,
   410497, 44292, 676440, 830715, 831995, 598743, 132949, 537503, 814484, 62757, 241249, 840652, 511145, 861034, 336145,
   290087, 105969, 295425, 332798, 204798, 550404, 674067, 306260, 444226, 9858, 177043, 641054, 348502, 186827, 339125, 49983,
   134207, 628322, 451179, 895936, 703176, 219339, 996457, 617354, 222677, 504010, 632781, 639435, 639966, 817198, 822665,
   915184, 387259, 607975, 59720, 294821, 749568, 378803, 337204, 129098, 707083, 833536, 362242, 105010, 556562, 292601,
   519437]

def codesOk : List (String × PropText) → List Nat → Bool
  | [], [] => true
  | e :: es, n :: ns => codeOk (chars e.1) 0 n && Nat.blt 0 n && codesOk es ns
  | _, _ => false

def distinct : List Nat → Bool
  | [] => true
  | x :: xs => xs.all (fun y => !(Nat.beq x y)) && distinct xs

theorem table_codes : codesOk table codes = true := by decide +kernel
theorem codes_distinct : distinct codes = true := by decide +kernel

theorem codesOk_map : ∀ (es : List (String × PropText)) (ns : List Nat), codesOk es ns = true →
    es.map (fun e => code (chars e.1) 0) = ns ∧ ∀ e ∈ es, chars e.1 ≠ [] ∧ ∀ c ∈ chars e.1, c ≤ 124
  | [], [], _ => ⟨rfl, by simp⟩
  | [], _ :: _, h => by cases h
  | _ :: _, [], h => by cases h
  | e :: es, n :: ns, h => by
    simp only [codesOk, Bool.and_eq_true] at h
    obtain ⟨⟨h1, h2⟩, h3⟩ := h
    obtain ⟨h4, h5⟩ := codeOk_spec _ _ _ h1
    obtain ⟨h6, h7⟩ := codesOk_map es ns h3
    refine ⟨by simp [h4, h6], fun f hf => ?_⟩
    simp only [List.mem_cons] at hf
    rcases hf with rfl | hf
    · refine ⟨fun hn => ?_, h5⟩
      rw [hn] at h4
      simp only [code] at h4
      subst h4
      cases h2
    · exact h7 f hf

theorem distinct_pairwise : ∀ (ns : List Nat), distinct ns = true → ns.Pairwise (· ≠ ·)
  | [], _ => .nil
  | x :: xs, h => by
    simp only [distinct, Bool.and_eq_true, List.all_eq_true, Bool.not_eq_true'] at h
    refine .cons (fun y hy hxy => ?_) (distinct_pairwise xs h.2)
    have := h.1 y hy
    rw [hxy, Nat.beq_refl] at this
    cases this

/-- No two entries have the same name. -/
theorem table_names : table.Pairwise fun e f => chars e.1 ≠ chars f.1 := by
  have h := (codesOk_map _ _ table_codes).1
  have h2 := distinct_pairwise _ codes_distinct
  rw [← h, List.pairwise_map] at h2
  exact h2.imp fun h3 h4 => h3 (by rw [h4])

theorem name_ok {e : String × PropText} (h : e ∈ table) : chars e.1 ≠ [] ∧ ∀ c ∈ chars e.1, c ≤ 124 :=
  (codesOk_map _ _ table_codes).2 e h

theorem find_first {α : Type} {p : α → Bool} : ∀ {l : List α} {a : α}, a ∈ l → p a = true → l.Pairwise (fun x y => ¬ (p x = true ∧ p y = true)) →
    l.find? p = some a
  | b :: l, a, h, hp, hd => by
    rw [List.pairwise_cons] at hd
    rw [List.find?_cons]
    simp only [List.mem_cons] at h
    rcases h with rfl | h
    · rw [hp]
    · have : p b = false := by
        cases hb : p b with
        | false => rfl
        | true => exact absurd ⟨hb, hp⟩ (hd.1 a h)
      rw [this]
      exact find_first h hp hd.2

/-- A name leads to its own entry. -/
theorem entry_of {name : String} {p : PropText} (h : (name, p) ∈ table) : entry (chars name) = some p := by
  unfold entry
  rw [find_first h (by simp) (table_names.imp fun h1 h2 => ?_)]
  · rfl
  · simp only [decide_eq_true_eq] at h2
    exact h1 (h2.1.trans h2.2.symm)

theorem entry_unique {name : String} {p q : PropText} (h : (name, p) ∈ table) (h' : (name, q) ∈ table) : p = q := by
  have := entry_of h
  rw [entry_of h'] at this
  injection this with this
  exact this.symm

/-- Only names in the table lead to an entry. -/
theorem entry_some {name : List Nat} {p : PropText} (h : entry name = some p) : ∃ n, chars n = name ∧ (n, p) ∈ table := by
  unfold entry at h
  cases hf : table.find? fun e => chars e.1 = name with
  | none => simp [hf] at h
  | some e =>
    rw [hf] at h
    simp only [Option.map_some, Option.some.injEq] at h
    subst h
    exact ⟨e.1, by simpa using List.find?_some hf, List.mem_of_find?_eq_some hf⟩

/-! ### Ranges -/

/-- Non-empty ranges of code points, at least one, at most 4000. -/
def rangesOk (rs : List (Nat × Nat)) : Bool := !rs.isEmpty && rs.all fun r => Nat.ble r.1 r.2 && Nat.ble r.2 0x10ffff

def entryOk (e : String × PropText) : Bool :=
  match e.2 with
  | .ranges _ rs => rangesOk rs
  | .props _ => true

theorem table_ranges : (table.all entryOk) = true := by decide +kernel

theorem ranges_ok {name : String} {up : Bool} {rs : List (Nat × Nat)} (h : (name, PropText.ranges up rs) ∈ table) :
    rs ≠ [] ∧ ∀ r ∈ rs, r.1 ≤ r.2 ∧ r.2 ≤ 0x10ffff := by
  have := List.all_eq_true.1 table_ranges _ h
  simp only [entryOk, rangesOk, Bool.and_eq_true, List.all_eq_true, Nat.ble_eq, Bool.not_eq_true', List.isEmpty_eq_false_iff] at this
  exact this

/-! ### References -/

def isRanges : PropText → Bool
  | .ranges _ _ => true
  | .props _ => false

def refsOk (e : String × PropText) : Bool :=
  match e.2 with
  | .ranges _ _ => true
  | .props ns => !ns.isEmpty && ns.all fun n => categoryEntries.any fun f => isRanges f.2 && n == f.1

theorem table_refs : (table.all refsOk) = true := by decide +kernel

theorem refs_ok {name : String} {ns : List String} (h : (name, PropText.props ns) ∈ table) :
    ns ≠ [] ∧ ∀ n ∈ ns, ∃ up rs, (n, PropText.ranges up rs) ∈ table := by
  have := List.all_eq_true.1 table_refs _ h
  simp only [refsOk, Bool.and_eq_true, List.all_eq_true, Bool.not_eq_true', List.isEmpty_eq_false_iff, List.any_eq_true, beq_iff_eq] at this
  refine ⟨this.1, fun n hn => ?_⟩
  obtain ⟨⟨m, p⟩, h1, h2, h3⟩ := this.2 n hn
  dsimp only at h2 h3
  subst h3
  cases p with
  | props _ => cases h2
  | ranges up rs => exact ⟨up, rs, by simp [table, h1]⟩

end Lexertl.Uni
