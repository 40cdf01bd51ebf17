import Verif.Proofs.UnicodeSets
import Verif.Props.Regexes

/-
Unicode properties: what `\\p{name}` takes (C53), and what the tables say (C54).
-/
namespace Lexertl.Props
open Spec Reading Uni

/-! ### The escape -/

theorem prop_text {E : TokEnv} (hE : TokEnvOk E) {name : String} (hn : IsProp name) : TextOk E (propEscape name) := by
  obtain ⟨p, hp⟩ := hn
  have hb := hE.big
  intro d hd
  simp only [propEscape, List.cons_append, List.mem_cons, List.mem_append, List.not_mem_nil, or_false] at hd
  rcases hd with rfl | rfl | rfl | hd | rfl
  · omega
  · omega
  · omega
  · have := (name_ok hp).2 d hd
    omega
  · omega

theorem prop_atom {E : TokEnv} (hU : E.unicode = Unicode.lookupText) (f : ReFlags) (b start : Bool) {name : String} (hn : IsProp name)
    (hm : ∀ c, HasProp name c → c ≤ E.max) (rest : List Nat) : AtomText E f b start (propEscape name) (Closed E f.icase (HasProp name)) rest := by
  obtain ⟨p, hp⟩ := hn
  exact .prop b start (chars name) _ _ rest (name_ok hp).1 (name_brace hp) (by rw [hU]; exact lookup_of hp) (prop_whole hU f.icase hp hm)

/-- The text of one charset: what the lexer takes. -/
theorem charset_takes {E : TokEnv} (hE : TokEnvOk E) (hC : CharsOk E) {tr : Traits} (hmax : E.max + 1 = charsOf tr) {f : ReFlags}
    {v : List Nat} {S : Nat → Prop} (hw : TextOk E v) (h : AtomText E f false true v S []) {t : List (Nat × Nat)} (ht : IsSet t S)
    (hplanes : ∀ r ∈ t, FewPlanes r) (hlen : 15 * t.length + 2 ≤ tr.npos) (hnpos : 263 ≤ tr.npos) :
    TextTakes E tr f v fun inp => ∃ c, inp = [c] ∧ S c := by
  have hcount : slotsOf tr t + 2 ≤ tr.npos := by
    have hb : bytesOf tr ≤ 3 := by
      unfold bytesOf
      repeat' split
      all_goals omega
    unfold slotsOf
    split
    · have := Nat.mul_le_mul_right (5 * t.length) hb
      omega
    · omega
  have := means_takes hE hC hmax hnpos hw (atom_means (M := []) h ht) rfl rfl rfl (fun _ _ => hplanes) hcount
  refine ⟨this.1, fun o ho addr sm hsm fl inp hinp hne => ?_⟩
  refine (this.2 o ho addr sm hsm fl inp hinp hne).trans (chars_matches.trans ?_)
  simp only [ht.2]

/-- C53: `\\p{name}` takes exactly the characters that have the property, if all of them are
characters of the machine.  For every name of the tables. -/
theorem C53_takes {E : TokEnv} (hE : TokEnvOk E) (hC : CharsOk E) (hU : E.unicode = Unicode.lookupText) {tr : Traits}
    (hmax : E.max + 1 = charsOf tr) (hnpos : 15002 ≤ tr.npos) {f : ReFlags} (hf : f.icase = false) {name : String} (hn : IsProp name)
    (hm : ∀ c, HasProp name c → c ≤ E.max) : TextTakes E tr f (propEscape name) fun inp => ∃ c, inp = [c] ∧ HasProp name c := by
  have ⟨p, hp⟩ := hn
  obtain ⟨h1, h2, h3⟩ := norm_spec hp
  have ha := prop_atom hU f false true hn hm []
  have hs : Closed E f.icase (HasProp name) = HasProp name := by
    funext c
    simp [Closed, hf]
  rw [hs] at ha
  exact charset_takes hE hC hmax (prop_text hE hn) ha h1 h2 (by omega) (by omega)

/-- C53: with 32 bit characters every name of the tables can be used. -/
theorem C53_takes_code_points {E : TokEnv} (hE : TokEnvOk E) (hC : CharsOk E) (hU : E.unicode = Unicode.lookupText) (hm : E.max = 0x10ffff)
    {tr : Traits} (hc : tr.compressed = true) (hw : tr.char24 = true) (hnpos : 15002 ≤ tr.npos) {f : ReFlags} (hf : f.icase = false)
    {name : String} (hn : IsProp name) : TextTakes E tr f (propEscape name) fun inp => ∃ c, inp = [c] ∧ HasProp name c :=
  C53_takes hE hC hU (by simp [charsOf, hc, hw, hm]) hnpos hf hn (fun _ h => hm ▸ prop_le h)

/-- C53: the meaning of `\\p{name}` as part of larger expressions; ignoring case, the other cases
of the characters are added. -/
theorem C53_means {E : TokEnv} (hU : E.unicode = Unicode.lookupText) (M : List (List Nat × Re)) (f : ReFlags) {name : String} (hn : IsProp name)
    (hm : ∀ c, HasProp name c → c ≤ E.max) {t : List (Nat × Nat)} (ht : IsSet t (Closed E f.icase (HasProp name))) :
    Means E M f (propEscape name) (.chars t) :=
  atom_means (prop_atom hU f false true hn hm []) ht

/-- C53: between brackets the properties are united; after `^` it is all other characters. -/
theorem C53_brackets {E : TokEnv} (hU : E.unicode = Unicode.lookupText) (M : List (List Nat × Re)) (f : ReFlags) {names : List String}
    (hnames : names ≠ []) (hn : ∀ n ∈ names, IsProp n) (hm : ∀ n ∈ names, ∀ c, HasProp n c → c ≤ E.max) :
    (∀ t, IsSet t (Closed E f.icase fun c => ∃ n ∈ names, HasProp n c) →
      Means E M f (91 :: names.flatMap propEscape ++ [93]) (.chars t)) ∧
    (∀ t, IsSet t (Compl E (Closed E f.icase fun c => ∃ n ∈ names, HasProp n c)) → t ≠ [] →
      Means E M f (91 :: 94 :: names.flatMap propEscape ++ [93]) (.chars t)) := by
  have h := refs_whole hU f.icase hnames hn hm
  have e : names.flatMap Unicode.refText = names.flatMap propEscape := rfl
  rw [e] at h
  refine ⟨fun t ht => atom_means (.set true _ _ [] h) ht, fun t ht hne => ?_⟩
  refine atom_means (.set true _ _ [] ?_) ht
  have hi : Brackets E f.icase (.items true) (names.flatMap propEscape ++ [93]) (Closed E f.icase (Any HasProp names)) [] := by
    have hh : (names.flatMap propEscape ++ [93]).head? ≠ some 94 := by
      obtain ⟨n, ns, rfl⟩ := List.exists_cons_of_ne_nil hnames
      simp [propEscape]
    generalize names.flatMap propEscape ++ [93] = v at h hh
    generalize Closed E f.icase (Any HasProp names) = S at h
    cases h with
    | pos _ _ _ h _ => exact h
    | neg w _ h1 h2 => exact absurd rfl hh
  refine .neg _ _ hi ?_
  obtain ⟨r, t', rfl⟩ := List.exists_cons_of_ne_nil hne
  exact ⟨r.1, (ht.2 r.1).1 ⟨r, by simp, Nat.le_refl _, ht.1.1 r (by simp)⟩⟩

/-- C53: a rule with a property some of whose characters are beyond the machine's characters is
refused, and nothing changes. -/
theorem C53_too_wide {E : TokEnv} (hU : E.unicode = Unicode.lookupText) {tr : Traits} (o : RulesObj) {pre rest : List Nat}
    (hp : ∀ c ∈ pre, PlainChar o.flags c) {name : String} {c : Nat} (h : HasProp name c) (hc : E.max < c) (id uid : Nat) :
    ∃ what, o.pushInitial E tr (pre ++ propEscape name ++ rest) id uid = (o, throw_ what) := by
  obtain ⟨what, hw⟩ := escapeTok_refused hU o.flags.icase h hc rest
  have e : pre ++ propEscape name ++ rest = pre ++ 92 :: (112 :: 123 :: chars name ++ 125 :: rest) := by simp [propEscape]
  rw [e]
  exact push_refused hp hw

/-- C53: so is a rule with a name that is not in the tables. -/
theorem C53_unknown {E : TokEnv} (hU : E.unicode = Unicode.lookupText) {tr : Traits} (o : RulesObj) {pre rest name : List Nat}
    (hp : ∀ c ∈ pre, PlainChar o.flags c) (hne : name ≠ []) (hb : 125 ∉ name) (h : ∀ n, IsProp n → chars n ≠ name) (id uid : Nat) :
    ∃ what, o.pushInitial E tr (pre ++ (92 :: 112 :: 123 :: name ++ [125]) ++ rest) id uid = (o, throw_ what) := by
  obtain ⟨what, hw⟩ : ∃ what, escapeTok E o.flags.icase (112 :: 123 :: name ++ 125 :: rest) = throw_ what := by
    refine escapeTok_unknown _ hne hb ?_ rest
    rw [hU]
    cases hx : Unicode.lookupText name with
    | none => rfl
    | some str =>
      obtain ⟨n, p, h1, h2, _⟩ := lookup_some hx
      exact absurd h1 (h n ⟨p, h2⟩)
  have e : pre ++ (92 :: 112 :: 123 :: name ++ [125]) ++ rest = pre ++ 92 :: (112 :: 123 :: name ++ 125 :: rest) := by simp
  rw [e]
  exact push_refused hp hw

theorem posix_takes {E : TokEnv} (hE : TokEnvOk E) (hC : CharsOk E) (hU : E.unicode = Unicode.lookupText) (hs : E.size ≠ 1) (hm : E.max = 0x10ffff)
    {tr : Traits} (hc : tr.compressed = true) (hw : tr.char24 = true) (hnpos : 21002 ≤ tr.npos) {f : ReFlags} (hf : f.icase = false)
    {name : String} {props : List String} (hmem : (chars name, props.flatMap Unicode.refText ++ [93]) ∈ posixWide)
    (hne : props ≠ []) (hp : ∀ n ∈ props, IsProp n) (hex : ∃ c, Any HasProp props c) {t : List (Nat × Nat)} (h1 : IsSet t (Any HasProp props))
    (h2 : ∀ r ∈ t, FewPlanes r) (h3 : t.length ≤ 1400) (hascii : ∀ c ∈ posixEscape name, c ≤ 127) :
    TextTakes E tr f (posixEscape name) fun inp => ∃ c, inp = [c] ∧ ∃ n ∈ props, HasProp n c := by
  have hb : Brackets E f.icase .whole (91 :: 58 :: chars name ++ [58, 93, 93]) (Any HasProp props) [] := by
    have h := refs_whole hU f.icase hne hp (fun n _ c hc => hm ▸ prop_le hc)
    have hS : Closed E f.icase (Any HasProp props) = Any HasProp props := by
      funext c
      simp [Closed, hf]
    rw [hS] at h
    have hi : Brackets E f.icase .item (91 :: 58 :: chars name ++ [58, 93]) (Any HasProp props) [93] :=
      .posix _ _ _ (.posixWide _ _ _ hs hmem h) (by simp [NoDash])
    have := Brackets.last true _ _ (.inl rfl) hi
    have e : 91 :: 58 :: chars name ++ [58, 93, 93] = 91 :: 58 :: chars name ++ [58, 93] ++ [93] := by simp
    rw [e]
    exact .pos _ _ (by simp) this hex
  have htext : TextOk E (posixEscape name) := by
    intro c hc
    have := hascii c hc
    have := hE.big
    omega
  exact charset_takes hE hC (by simp [charsOf, hc, hw, hm]) htext (.set true _ _ [] hb) h1 h2 (by omega) (by omega)

/-- C53: the POSIX classes of wide characters take the characters that have one of their
properties. -/
theorem C53_posix {E : TokEnv} (hE : TokEnvOk E) (hC : CharsOk E) (hU : E.unicode = Unicode.lookupText) (hs : E.size ≠ 1) (hm : E.max = 0x10ffff)
    {tr : Traits} (hc : tr.compressed = true) (hw : tr.char24 = true) (hnpos : 21002 ≤ tr.npos) {f : ReFlags} (hf : f.icase = false)
    {name : String} {props : List String} (hn : (name, props) ∈ posixProps) :
    TextTakes E tr f (posixEscape name) fun inp => ∃ c, inp = [c] ∧ ∃ n ∈ props, HasProp n c := by
  obtain ⟨h1, h2, h3⟩ := posix_spec hn
  obtain ⟨h4, h5⟩ := posix_ok hn
  have hmem : (chars name, props.flatMap Unicode.refText ++ [93]) ∈ posixWide := by
    have : ∀ e ∈ posixProps, (chars e.1, e.2.flatMap Unicode.refText ++ [93]) ∈ posixWide := by decide +kernel
    exact this _ hn
  have hascii : ∀ c ∈ posixEscape name, c ≤ 127 := by
    have : ∀ e ∈ posixProps, ∀ c ∈ posixEscape e.1, c ≤ 127 := by decide +kernel
    exact this _ hn
  refine posix_takes hE hC hU hs hm hc hw hnpos hf hmem h4 (fun n hn => by obtain ⟨up, rs, h⟩ := h5 n hn; exact ⟨_, h⟩) ?_ h1 h2 h3 hascii
  obtain ⟨n, ns, rfl⟩ := List.exists_cons_of_ne_nil h4
  obtain ⟨up, rs, h⟩ := h5 n (by simp)
  obtain ⟨c, hc⟩ := hasProp_exists h
  exact ⟨c, n, by simp, hc⟩

/-- C53: the class `print` of wide characters takes the characters of the group `C`, those that
are not printed. -/
theorem C53_posix_print {E : TokEnv} (hE : TokEnvOk E) (hC : CharsOk E) (hU : E.unicode = Unicode.lookupText) (hs : E.size ≠ 1) (hm : E.max = 0x10ffff)
    {tr : Traits} (hc : tr.compressed = true) (hw : tr.char24 = true) (hnpos : 21002 ≤ tr.npos) {f : ReFlags} (hf : f.icase = false) :
    TextTakes E tr f (posixEscape "print") (fun inp => ∃ c, inp = [c] ∧ HasProp "C" c) ∧
    (∃ c, HasProp "Cc" c ∧ HasProp "C" c) ∧ ¬ HasProp "C" 65 := by
  have hC' : ("C", PropText.props ["Cc", "Cf", "Co", "Cs"]) ∈ Unicode.table :=
    List.mem_append_left _ (List.mem_append_left _ (by simp [Unicode.categoryEntries, Unicode.pC]))
  obtain ⟨h1, h2, h3⟩ := norm_spec hC'
  have hany : Any HasProp ["C"] = HasProp "C" := by
    funext c
    simp [Any]
  have hcc : ∃ up rs, ("Cc", PropText.ranges up rs) ∈ Unicode.table := (posix_ok (name := "cntrl") (ns := ["Cc"]) (by decide)).2 _ (by simp)
  obtain ⟨up, rs, hcc⟩ := hcc
  obtain ⟨c, h4⟩ := hasProp_exists hcc
  have h5 : HasProp "C" c := .refers _ _ _ _ hC' (by simp) h4
  refine ⟨?_, ⟨c, h4, h5⟩, fun h => ?_⟩
  · have := posix_takes hE hC hU hs hm hc hw hnpos hf (name := "print") (props := ["C"]) (by decide +kernel) (by simp)
      (fun n hn => by simp only [List.mem_singleton] at hn; exact hn ▸ ⟨_, hC'⟩) ⟨c, hany ▸ h5⟩ (hany ▸ h1) h2 (by omega) (by decide +kernel)
    simpa using this
  · have := (h1.2 65).2 h
    revert this
    show Mem 65 _ → False
    intro ⟨r, hr, hh⟩
    have : ((norm (.props ["Cc", "Cf", "Co", "Cs"])).all fun r => !(Nat.ble r.1 65 && Nat.ble 65 r.2)) = true := by decide +kernel
    have := List.all_eq_true.1 this r hr
    rw [show Nat.ble r.1 65 = true from by rw [Nat.ble_eq]; exact hh.1, show Nat.ble 65 r.2 = true from by rw [Nat.ble_eq]; exact hh.2] at this
    cases this

/-! ### The tables -/

/-- C54: no character has two general categories, two blocks or two scripts.  Partial: that
every character has the category the Unicode standard gives it cannot be expressed, and is
false (`C54_letters_without_category`). -/
theorem C54_at_most_one_partial {n m : String} {c : Nat} (h1 : HasProp n c) (h2 : HasProp m c)
    (h : (n ∈ categories ∧ m ∈ categories) ∨ (IsBlock n ∧ IsBlock m) ∨ (IsScript n ∧ IsScript m)) : n = m := by
  refine Classical.byContradiction fun hne => ?_
  rcases h with ⟨hn, hm⟩ | ⟨⟨p, hn⟩, ⟨q, hm⟩⟩ | ⟨⟨p, hn⟩, ⟨q, hm⟩⟩
  · obtain ⟨up, rs, hn⟩ := category_ranges.2 hn
    obtain ⟨up', qs, hm⟩ := category_ranges.2 hm
    rw [hasProp_ranges (category_table _ hn)] at h1
    rw [hasProp_ranges (category_table _ hm)] at h2
    exact family_disjoint categories_sorted hn hm hne h1 h2
  · obtain ⟨up, rs, rfl⟩ := ranges_of_plain blocks_plain hn
    obtain ⟨up', qs, rfl⟩ := ranges_of_plain blocks_plain hm
    rw [hasProp_ranges (block_table _ hn)] at h1
    rw [hasProp_ranges (block_table _ hm)] at h2
    exact family_disjoint blocks_sorted hn hm hne h1 h2
  · obtain ⟨up, rs, rfl⟩ := ranges_of_plain scripts_plain hn
    obtain ⟨up', qs, rfl⟩ := ranges_of_plain scripts_plain hm
    rw [hasProp_ranges (script_table _ hn)] at h1
    rw [hasProp_ranges (script_table _ hm)] at h2
    exact family_disjoint scripts_sorted hn hm hne h1 h2

theorem script_listed (c : Nat) : Mem c (unionOf 9 (listsBut [] Unicode.scriptEntries)) ↔ ∃ s, IsScript s ∧ HasProp s c := by
  obtain ⟨h1, h2⟩ := listsBut_spec (but := []) script_table c
  rw [unionOf_mem h1, h2]
  constructor
  · rintro ⟨n, up, rs, h, _, hc⟩
    exact ⟨n, ⟨_, h⟩, hc⟩
  · rintro ⟨n, ⟨p, h⟩, hc⟩
    obtain ⟨up, rs, rfl⟩ := ranges_of_plain scripts_plain h
    exact ⟨n, up, rs, h, by simp, hc⟩

theorem block_listed (c : Nat) : Mem c (unionOf 10 (listsBut [] Unicode.blockEntries)) ↔ ∃ s, IsBlock s ∧ HasProp s c := by
  obtain ⟨h1, h2⟩ := listsBut_spec (but := []) block_table c
  rw [unionOf_mem h1, h2]
  constructor
  · rintro ⟨n, up, rs, h, _, hc⟩
    exact ⟨n, ⟨_, h⟩, hc⟩
  · rintro ⟨n, ⟨p, h⟩, hc⟩
    obtain ⟨up, rs, rfl⟩ := ranges_of_plain blocks_plain h
    exact ⟨n, up, rs, h, by simp, hc⟩

theorem category_listed (but : List String) (c : Nat) : Mem c (unionOf 6 (unlistedLetters :: listsBut but Unicode.categoryEntries)) ↔
    Listed unlistedLetters c ∨ ∃ n ∈ categories, n ∉ but ∧ HasProp n c := by
  obtain ⟨h1, h2⟩ := listsBut_spec (but := but) category_table c
  have h0 : ∀ r ∈ unlistedLetters, r.1 ≤ r.2 := by decide
  rw [unionOf_mem (by
    intro r hr
    rw [List.flatten_cons, List.mem_append] at hr
    exact hr.elim (h0 r) (h1 r))]
  have h3 : Listed (unlistedLetters :: listsBut but Unicode.categoryEntries).flatten c ↔
      Listed unlistedLetters c ∨ Listed (listsBut but Unicode.categoryEntries).flatten c := by
    unfold Listed
    simp only [List.flatten_cons, List.mem_append]
    constructor
    · rintro ⟨r, h | h, hc⟩
      · exact .inl ⟨r, h, hc⟩
      · exact .inr ⟨r, h, hc⟩
    · rintro (⟨r, h, hc⟩ | ⟨r, h, hc⟩)
      · exact ⟨r, .inl h, hc⟩
      · exact ⟨r, .inr h, hc⟩
  rw [h3, h2]
  constructor
  · rintro (h | ⟨n, up, rs, h, hb, hc⟩)
    · exact .inl h
    · exact .inr ⟨n, category_ranges.1 ⟨up, rs, h⟩, hb, hc⟩
  · rintro (h | ⟨n, h, hb, hc⟩)
    · exact .inl h
    · obtain ⟨up, rs, h⟩ := category_ranges.2 h
      exact .inr ⟨n, up, rs, h, hb, hc⟩

/-- C54: a character has a script exactly if it has a general category, other than private
use and surrogate, or is one of the letters the categories leave out. -/
theorem C54_scripts_and_categories (c : Nat) : (∃ s, IsScript s ∧ HasProp s c) ↔
    (∃ n ∈ categories, n ≠ "Co" ∧ n ≠ "Cs" ∧ HasProp n c) ∨ Listed unlistedLetters c := by
  have e : (∃ n ∈ categories, n ≠ "Co" ∧ n ≠ "Cs" ∧ HasProp n c) ↔ ∃ n ∈ categories, n ∉ ["Co", "Cs"] ∧ HasProp n c := by
    simp [and_assoc]
  rw [e, ← script_listed, Or.comm, ← category_listed]
  exact ⟨covers_spec _ _ _ scripts_covered c, covers_spec _ _ _ categories_covered c⟩

/-- C54: every character with a general category or a script is in a block. -/
theorem C54_blocks {n : String} {c : Nat} (h : HasProp n c) (hn : n ∈ categories ∨ IsScript n) : ∃ b, IsBlock b ∧ HasProp b c := by
  rw [← block_listed]
  refine covers_spec _ _ _ blocks_cover c ((category_listed [] c).2 ?_)
  rcases hn with hn | hn
  · exact .inr ⟨n, hn, by simp, h⟩
  · rcases (C54_scripts_and_categories c).1 ⟨n, hn, h⟩ with ⟨m, h1, _, _, h2⟩ | h1
    · exact .inr ⟨m, h1, by simp, h2⟩
    · exact .inl h1

/-- C54: the names that stand for several categories. -/
theorem C54_groups {g : String} {names : List String} (h : (g, names) ∈ categoryGroups) (c : Nat) :
    HasProp g c ↔ ∃ n ∈ names, HasProp n c := by
  have hg : (g, PropText.props names) ∈ Unicode.table := by
    have : ∀ e ∈ categoryGroups, (e.1, PropText.props e.2) ∈ Unicode.categoryEntries := by
      simp [categoryGroups, Unicode.categoryEntries, Unicode.pC, Unicode.pL, Unicode.pLC, Unicode.pM, Unicode.pN, Unicode.pP, Unicode.pS, Unicode.pZ]
    exact category_table _ (this _ h)
  rw [hasProp_props hg]
  rfl

/-- C54 fails for most ideographs and all but two Hangul syllables: they have a script, but no
general category, in particular they are not letters by `\\p{L}`. -/
theorem C54_letters_without_category {c : Nat} (h : Listed unlistedLetters c) :
    (HasProp "IsHan" c ∨ HasProp "IsHangul" c ∨ HasProp "IsTangut" c) ∧ (∀ n ∈ categories, ¬ HasProp n c) ∧ ¬ HasProp "L" c := by
  have hcat : ∀ n ∈ categories, ¬ HasProp n c := by
    intro n hn hc
    obtain ⟨up, rs, hn⟩ := category_ranges.2 hn
    rw [hasProp_ranges (category_table _ hn)] at hc
    have := disjoint_of lost_alone
    rw [List.pairwise_cons] at this
    exact this.1 rs (plain_mem hn) c h hc
  refine ⟨?_, hcat, fun hL => ?_⟩
  · have hr : ∀ n ∈ ["IsHan", "IsHangul", "IsTangut"], ∃ up rs, (n, PropText.ranges up rs) ∈ Unicode.table := by
      intro n hn
      have := List.all_eq_true.1 lost_refs n hn
      simp only [List.any_eq_true, Bool.and_eq_true, beq_iff_eq] at this
      obtain ⟨⟨m, p⟩, h1, rfl, h2⟩ := this
      cases p with
      | ranges up rs => exact ⟨up, rs, h1⟩
      | props _ => cases h2
    obtain ⟨h1, h2⟩ := listsOf_refs hr
    obtain ⟨n, hn, hc⟩ := (h2 c).1 ((unionOf_mem h1 c).1 (covers_spec _ _ _ lost_scripts c h))
    simp only [List.mem_cons, List.not_mem_nil, or_false] at hn
    rcases hn with rfl | rfl | rfl
    · exact .inl hc
    · exact .inr (.inl hc)
    · exact .inr (.inr hc)
  · obtain ⟨n, hn, hc⟩ := (C54_groups (g := "L") (names := ["Ll", "Lm", "Lo", "Lt", "Lu"]) (by simp [categoryGroups]) c).1 hL
    refine hcat n ?_ hc
    simp only [List.mem_cons, List.not_mem_nil, or_false] at hn
    rcases hn with rfl | rfl | rfl | rfl | rfl <;> simp [categories]

/-! ### Examples -/

namespace Ex

/-- 32 bit characters with the library's tables. -/
def envUni : TokEnv where
  max := 0x10ffff
  size := 4
  upper c := c
  lower c := c
  isAlnum _ := false
  isAlpha _ := false
  isLower _ := false
  isUpper _ := false
  fold2 := fold2Table
  fold4 := fold4Table
  unicode := Unicode.lookupText

theorem foldTable_mono {a b : Nat} {ps : List FoldPair} (hab : a ≤ b) (h : FoldTable a ps) : FoldTable b ps :=
  ⟨h.sorted, fun p hp => ⟨(h.length p hp).1, (h.length p hp).2.1, Nat.le_trans (h.length p hp).2.2 hab⟩⟩

theorem envUniOk : TokEnvOk envUni where
  big := by decide
  byte := by intro h; cases h
  upper c hc := hc
  lower c hc := hc
  fold2 := foldOk_of (foldTable_mono (by decide) foldTables.1)
  fold4 p hp := ⟨foldOk_of foldTables.2.1 p hp, foldTables.2.2.2 p hp⟩
  classes c h := by simp [envUni] at h
  unicode := (tables_ok rfl (by decide)).1
  nest := (tables_ok rfl (by decide)).2

theorem envUniChars : CharsOk envUni where
  small := by decide
  fold2 := foldTable_mono (by decide) foldTables.1
  fold4 := foldTables.2.1
  first2 := foldTables.2.2.1
  up4 := foldTables.2.2.2
  classes c h := by simp [envUni] at h

theorem isProp_Lu : IsProp "Lu" := ⟨_, category_table ("Lu", Unicode.pLu) (by simp [Unicode.categoryEntries])⟩

theorem greek_script : ("IsGreek", Unicode.pIsGreek) ∈ Unicode.scriptEntries := by
  unfold Unicode.scriptEntries
  repeat first | exact List.mem_cons_self | apply List.mem_cons_of_mem

theorem greek : HasProp "IsGreek" 0x3b1 :=
  .listed _ _ _ _ (script_table _ greek_script) ⟨(0x3a3, 0x3e1), by decide, by decide⟩

/-- The hypotheses of `C53_takes` are met. -/
example : TextTakes envUni tr24 {} (chars "\\p{Lu}") fun inp => ∃ c, inp = [c] ∧ HasProp "Lu" c :=
  C53_takes_code_points envUniOk envUniChars rfl rfl rfl rfl (by decide) rfl isProp_Lu

example : TextTakes envUni tr24 {} (chars "[[:alpha:]]") fun inp => ∃ c, inp = [c] ∧ ∃ n ∈ ["Ll", "Lu"], HasProp n c :=
  C53_posix (tr := tr24) (name := "alpha") (props := ["Ll", "Lu"]) envUniOk envUniChars rfl (by decide) rfl rfl rfl (by decide) rfl (by simp [posixProps])

/-- With 16 bit characters the letters beyond are too many. -/
def envUni16 : TokEnv := { envUni with max := 0xffff, size := 2, fold4 := [] }

theorem lu_wide : HasProp "Lu" 0x10400 :=
  .listed _ _ _ _ (category_table ("Lu", Unicode.pLu) (by simp [Unicode.categoryEntries])) ⟨(0x10400, 0x10427), by decide +kernel, by decide⟩

example (o : RulesObj) (h : o.flags = {}) : ∃ what, o.pushInitial envUni16 tr16 (chars "x\\p{Lu}*") 1 0 = (o, throw_ what) :=
  C53_too_wide (pre := [120]) (rest := [42]) (E := envUni16) rfl o (by rw [h]; simp [PlainChar, metaChars]) lu_wide (by decide) 1 0

/-- One category, and the letters without. -/
example : HasProp "Lu" 65 ∧ ¬ HasProp "Ll" 65 := by
  have h : HasProp "Lu" 65 :=
    .listed _ _ _ _ (category_table ("Lu", Unicode.pLu) (by simp [Unicode.categoryEntries])) ⟨(65, 90), by decide, by decide⟩
  exact ⟨h, fun h' => absurd (C54_at_most_one_partial h h' (.inl ⟨by simp [categories], by simp [categories]⟩)) (by decide)⟩

example : ∃ b, IsBlock b ∧ HasProp b 0x3b1 := C54_blocks greek (.inr ⟨_, greek_script⟩)

/-- 中 is Han, and no letter. -/
example : HasProp "IsHan" 0x4e2d ∨ HasProp "IsHangul" 0x4e2d ∨ HasProp "IsTangut" 0x4e2d :=
  (C54_letters_without_category ⟨(0x4e01, 0x9ffe), by decide, by decide⟩).1

end Ex

end Lexertl.Props
