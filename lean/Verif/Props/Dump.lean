import Verif.Proofs.DumpMachine
import Verif.Props.Regexes

/-
C58: what `debug::dump` prints of a machine.
-/
namespace Lexertl.Props
open Spec Dump

/-- C58.  The text printed for the charset of a transition, given to the library as a regex,
means exactly this charset.
What is missing from the full property: charsets that are not `Clear`, see
`C58_single_dollar`, `C58_bracket_inside`, `C58_bracket_ends_range` and `C58_number_runs_on`,
and `char32_t`, see `C58_char32_decimal`. -/
theorem C58_charset_reads_back_partial {E : TokEnv} (hE : 127 ≤ E.max) {t : Token} (ht : SetOk E.max t) (hc : Clear E.max t) :
    ∃ w : List Nat, dumpCharset E.max 16 t = .ok w ∧
      ∀ (M : List (List Nat × Re)) (f : ReFlags), f.icase = false → f.skipWs = false → Means E M f w (.chars t) :=
  charset_means hE ht hc

/-- C58.  A machine is determined by its dump, as far as it is printed: two machines with the
same dump have the same lexer states with the same states; the same states end a token, with
the same ids, stack operations and next lexer states; the transitions, the end of line and the
beginning of line states are the same.  The same holds for dumps with the names of the lexer
states.
What is missing from the full property: machines with charsets that are not `Clear`, see
`C58_same_dump`. -/
theorem C58_determines_partial {max npos : Nat} (h1 : 127 ≤ max) (h2 : max < 2 ^ 64) {m m' : List CDfa} (hm : ClearMachine max m)
    (hm' : ClearMachine max m') :
    (∃ w, dumpCsm max 16 npos m = .ok w) ∧
    (∀ w, dumpCsm max 16 npos m = .ok w → dumpCsm max 16 npos m' = .ok w → Pointwise PrintedAlike m m') ∧
    (∀ (tr : Traits) (o : RulesObj) w, dumpCsmNames max 16 tr o m = .ok w → dumpCsmNames max 16 tr o m' = .ok w →
      Pointwise PrintedAlike m m') :=
  ⟨dump_ok h1 hm (fun i => ⟨_, rfl⟩), fun _ e1 e2 => dfas_inj h1 h2 hm hm' e1 e2, fun _ _ _ e1 e2 => dfas_inj h1 h2 hm hm' e1 e2⟩

theorem dumpCharset_ok {max base : Nat} {t : Token} (h : t ≠ []) : ∃ w, dumpCharset max base t = .ok w := by
  unfold dumpCharset
  cases t with
  | nil => exact absurd rfl h
  | cons r rs =>
    simp only
    split
    · rename_i h1
      split
      · exact ⟨_, rfl⟩
      · rename_i h2
        rw [if_neg h2] at h1
        simp at h1
    · split <;> exact ⟨_, rfl⟩

theorem dumpTransitions_ok {max base : Nat} : ∀ {m : List (Nat × Token)}, (∀ p ∈ m, p.2 ≠ []) → ∃ w, dumpTransitions max base m = .ok w
  | [], _ => ⟨_, rfl⟩
  | (k, t) :: m, h => by
    obtain ⟨s, e1⟩ := dumpCharset_ok (max := max) (base := base) (h (k, t) (by simp))
    obtain ⟨v, e2⟩ := dumpTransitions_ok (max := max) (base := base) (m := m) (fun p hp => h p (by simp [hp]))
    simp only at e1
    exact ⟨_, by simp only [dumpTransitions, e1, e2]; rfl⟩

theorem dumpStates_ok {max base npos bol : Nat} : ∀ {ss : List CState} {i : Nat}, (∀ s ∈ ss, ∀ p ∈ s.transitions, p.2 ≠ []) →
    ∃ w, dumpStates max base npos bol i ss = .ok w
  | [], _, _ => ⟨_, rfl⟩
  | s :: ss, i, h => by
    obtain ⟨t, e1⟩ := dumpTransitions_ok (max := max) (base := base) (h s (by simp))
    obtain ⟨v, e2⟩ := dumpStates_ok (max := max) (base := base) (npos := npos) (bol := bol) (ss := ss) (i := i + 1) (fun q hq => h q (by simp [hq]))
    exact ⟨_, by simp only [dumpStates, e1, e2]; rfl⟩

/-- C58.  Every machine whose transitions all have a character is printed, for all character
types. -/
theorem C58_prints (max base npos : Nat) {m : List CDfa} (h : ∀ d ∈ m, ∀ s ∈ d.states, ∀ p ∈ s.transitions, ∃ c, Mem c p.2) :
    ∃ w, dumpCsm max base npos m = .ok w := by
  unfold dumpCsm
  generalize 0 = i
  induction m generalizing i with
  | nil => exact ⟨_, rfl⟩
  | cons d m ih =>
    obtain ⟨t, e1⟩ := dumpStates_ok (max := max) (base := base) (npos := npos) (bol := d.bol) (ss := d.states) (i := 0) (fun s hs p hp h' => by
      obtain ⟨c, hc⟩ := h d (by simp) s hs p hp
      rw [h'] at hc
      exact Token.mem_nil c hc)
    obtain ⟨v, e2⟩ := ih (fun d hd => h d (by simp [hd])) (i + 1)
    exact ⟨_, by simp only [dumpDfas, e1, e2]; rfl⟩

/-! ### Charsets that are printed wrongly -/

/-- C58.  A transition on `$` is printed as `$`, which means the end of a line. -/
theorem C58_single_dollar {E : TokEnv} (hE : E.max = 255) (M : List (List Nat × Re)) (f : ReFlags) :
    dumpCharset E.max 16 [(36, 36)] = .ok (chars "$") ∧ Means E M f (chars "$") .eol := by
  rw [hE]
  exact ⟨rfl, [.eol], .eol true f [] [] (.done false f), .alt1 _ _ (.seq1 _ _ (.item _ _ .eol))⟩

theorem reads_two {E : TokEnv} {f : ReFlags} {v w : List Nat} {S T : Nat → Prop} {t u : Token} (M : List (List Nat × Re))
    (h1 : AtomText E f false true v S w) (h2 : AtomText E f false false w T []) (ht : IsSet t S) (hu : IsSet u T) :
    Means E M f (v ++ w) (.seq (.chars t) (.chars u)) := by
  refine ⟨[.chars t, .chars u], .atom true f [] false v S t w _ h1 ht ?_,
    .alt1 _ _ (.seq [.chars t] [.chars u] _ _ (.seq1 _ _ (.item _ _ (.set _ _ (.chars t)))) (.item _ _ (.set _ _ (.chars u))))⟩
  have := Reads.atom false f [] false w T u [] [] h2 hu (.done false f)
  rwa [List.append_nil] at this

theorem isSet_one (a : Nat) : IsSet [(a, a)] (fun c => c = a) := ⟨by simp [Normal], fun c => by simp [Mem]; omega⟩

theorem closed_plain {E : TokEnv} {f : ReFlags} (h : f.icase = false) (S : Nat → Prop) : Closed E f.icase S = S := by
  rw [h]; exact funext fun x => propext (closed_false S x)

/-- C58.  A `]` between others is printed as it is: a transition on `A` and `]` is printed as
`[A]]`, which means `A` followed by `]`. -/
theorem C58_bracket_inside {E : TokEnv} (hE : E.max = 255) (M : List (List Nat × Re)) (f : ReFlags) (hf : f.icase = false) :
    dumpCharset E.max 16 [(65, 65), (93, 93)] = .ok (chars "[A]]") ∧
    Means E M f (chars "[A]]") (.seq (.chars [(65, 65)]) (.chars [(93, 93)])) := by
  rw [hE]
  refine ⟨rfl, reads_two M (v := [91, 65, 93]) (w := [93]) (S := fun c => c = 65) (T := fun c => c = 93) ?_ ?_ (isSet_one 65) (isSet_one 93)⟩
  · have : Brackets E f.icase .item [65] (Closed E f.icase (· = 65)) [93] :=
      .char [65] 65 [93] (.self 65 [93] (by decide) (by decide)) (by decide)
    rw [closed_plain hf] at this
    exact .set true _ _ _ (.pos _ _ (by decide) (.last true [65] _ (.inl rfl) this) ⟨65, rfl⟩)
  · have := AtomText.plain (E := E) (f := f) false 93 [] (by decide) (by simp [IsSpace])
    rwa [closed_plain hf] at this

/-- C58.  The backslash for the `]` at the end of a range is printed before the range: the
range from `Z` to `]` is printed as `[\Z-]]`, which means `Z` or `-`, followed by `]`. -/
theorem C58_bracket_ends_range {E : TokEnv} (hE : E.max = 255) (M : List (List Nat × Re)) (f : ReFlags) (hf : f.icase = false) :
    dumpCharset E.max 16 [(90, 93)] = .ok (chars "[\\Z-]]") ∧
    Means E M f (chars "[\\Z-]]") (.seq (.chars [(45, 45), (90, 90)]) (.chars [(93, 93)])) := by
  rw [hE]
  refine ⟨rfl, reads_two M (v := [91, 92, 90, 45, 93]) (w := [93]) (S := fun c => c = 90 ∨ c = 45) (T := fun c => c = 93) ?_ ?_ ?_ (isSet_one 93)⟩
  · have h1 : Brackets E f.icase .item [92, 90] (Closed E f.icase (· = 90)) [45, 93] :=
      .char [92, 90] 90 [45, 93] (.esc [90] 90 _ (.self 90 _ (by decide) (by decide) (by decide))) (by decide)
    have h2 : Brackets E f.icase .item [45] (Closed E f.icase (· = 45)) [93] :=
      .char [45] 45 [93] (.self 45 [93] (by decide) (by decide)) (by decide)
    rw [closed_plain hf] at h1 h2
    exact .set true _ _ _ (.pos _ _ (by decide) (.more true [92, 90] _ [45, 93] _ (.inl rfl) h1 (.last false [45] _ (.inr (by decide)) h2)) ⟨90, .inl rfl⟩)
  · have := AtomText.plain (E := E) (f := f) false 93 [] (by decide) (by simp [IsSpace])
    rwa [closed_plain hf] at this
  · exact ⟨by decide, fun c => by simp [Mem]; omega⟩

theorem clear_of {max : Nat} {t : Token} (h1 : t ≠ [(36, 36)]) (h2 : ¬ (max < 2 * charCount t ∧ t ≠ [(0, max)])) (h3 : Legible t) : Clear max t :=
  ⟨h1, fun u hu => by unfold Lists at hu; rw [if_neg h2] at hu; rw [hu]; exact h3⟩

/-- C58.  Numbers run on into digits: a transition on the characters 1, `a` and `z` is printed
as `[\x1az]`, which means the characters 26 and `z`. -/
theorem C58_number_runs_on {E : TokEnv} (hE : E.max = 255) (M : List (List Nat × Re)) (f : ReFlags) (hf : f.icase = false) (hf' : f.skipWs = false) :
    dumpCharset E.max 16 [(1, 1), (97, 97), (122, 122)] = .ok (chars "[\\x1az]") ∧ Means E M f (chars "[\\x1az]") (.chars [(26, 26), (122, 122)]) := by
  have hc : Clear E.max [(26, 26), (122, 122)] := by
    rw [hE]
    exact clear_of (by decide) (by decide) ⟨by decide, by decide, by decide⟩
  obtain ⟨w, h1, h2⟩ := C58_charset_reads_back_partial (E := E) (by omega) (t := [(26, 26), (122, 122)]) (by rw [hE]; exact ⟨by decide, by decide, by decide⟩) hc
  rw [hE] at h1 ⊢
  have h3 : dumpCharset 255 16 [(26, 26), (122, 122)] = .ok (chars "[\\x1az]") := by rfl
  rw [h3] at h1
  injection h1 with h1
  exact ⟨rfl, h1 ▸ h2 M f hf hf'⟩

/-- C58.  For `char32_t` numbers are printed in decimal, after `\x`: the character 0x20ac is
printed as `\x8364`, which means the character 0x8364. -/
theorem C58_char32_decimal {E : TokEnv} (hE : E.max = 0x10ffff) (M : List (List Nat × Re)) (f : ReFlags) (hf : f.icase = false) (hf' : f.skipWs = false) :
    dumpCharset E.max 10 [(0x20ac, 0x20ac)] = .ok (chars "\\x8364") ∧ Means E M f (chars "\\x8364") (.chars [(0x8364, 0x8364)]) := by
  have hc : Clear E.max [(0x8364, 0x8364)] := by
    rw [hE]
    exact clear_of (by decide) (by decide) ⟨by decide, by decide, by decide⟩
  obtain ⟨w, h1, h2⟩ := C58_charset_reads_back_partial (E := E) (by omega) (t := [(0x8364, 0x8364)]) (by rw [hE]; exact ⟨by decide, by decide, by decide⟩) hc
  rw [hE] at h1 ⊢
  have h3 : dumpCharset 0x10ffff 16 [(0x8364, 0x8364)] = .ok (chars "\\x8364") := by rfl
  rw [h3] at h1
  injection h1 with h1
  exact ⟨rfl, h1 ▸ h2 M f hf hf'⟩

namespace Ex

/-- One state with a transition on a charset to the other one, an end state. -/
def oneStep (t : Token) : List CDfa :=
  [⟨65535, [⟨false, .neither, 0, 65535, 65535, 0, 65535, [(1, t)]⟩, ⟨true, .neither, 1, 65535, 65535, 0, 65535, []⟩]⟩]

end Ex

/-- C58.  Two machines with different transitions and the same dump. -/
theorem C58_same_dump : ∃ w, dumpCsm 255 16 65535 (Ex.oneStep [(1, 1), (97, 97), (122, 122)]) = .ok w ∧
    dumpCsm 255 16 65535 (Ex.oneStep [(26, 26), (122, 122)]) = .ok w ∧
    ¬ Pointwise PrintedAlike (Ex.oneStep [(1, 1), (97, 97), (122, 122)]) (Ex.oneStep [(26, 26), (122, 122)]) := by
  refine ⟨_, rfl, rfl, fun h => ?_⟩
  cases h with
  | cons _ _ _ _ h _ =>
    have h := h.states
    cases h with
    | cons _ _ _ _ h _ =>
      have := h.trans
      simp at this

/-- The hypotheses of the theorems hold of charsets with ranges, escapes, numbers, and of
charsets listed by what they do not contain. -/
example : (SetOk 255 [(10, 10), (45, 45), (48, 57), (97, 122), (200, 210)] ∧ Clear 255 [(10, 10), (45, 45), (48, 57), (97, 122), (200, 210)]) ∧
    (SetOk 255 [(0, 33), (35, 255)] ∧ Clear 255 [(0, 33), (35, 255)]) := by
  refine ⟨⟨⟨by decide, by decide, by decide⟩, clear_of (by decide) (by decide) ⟨by decide, by decide, by decide⟩⟩,
    ⟨by decide, by decide, by decide⟩, by decide, fun u hu => ?_⟩
  unfold Lists at hu
  rw [if_pos (by decide)] at hu
  have : u = [(34, 34)] := Token.normal_ext _ _ hu.1 (by decide) fun c => (hu.2 c).trans (by simp [Mem]; omega)
  rw [this]
  exact ⟨by decide, by decide, by decide⟩

/-- And of machines with such charsets. -/
example : ClearMachine 255 (Ex.oneStep [(10, 10), (45, 45), (48, 57), (97, 122), (200, 210)]) := by
  intro d hd s hs p hp
  simp only [Ex.oneStep, List.mem_singleton] at hd
  subst hd
  simp only [List.mem_cons, List.not_mem_nil, or_false] at hs
  rcases hs with rfl | rfl
  · simp only [List.mem_singleton] at hp
    subst hp
    exact ⟨⟨by decide, by decide, by decide⟩, clear_of (by decide) (by decide) ⟨by decide, by decide, by decide⟩⟩
  · simp at hp

/-- What is printed. -/
example : dumpCsm 255 16 65535 (Ex.oneStep [(10, 10), (45, 45), (48, 57), (97, 122), (200, 210)]) =
    .ok (chars "Lexer state: 0\n\nState: 0\n  [\\n\\-0-9a-z\\xc8-\\xd2] -> 1\n\nState: 1\n  END STATE, Id = 1, User Id = 65535, dfa = 0\n\n") := by
  rfl

end Lexertl.Props
