import Verif.Props.Generated
import Verif.Props.Rules
import Verif.Proofs.FeatOnly

/-
Property C55: the features of a machine built from rules say what its tables contain; and
what follows from that for C51 and C52.
-/
namespace Lexertl.Props
open Spec

/-- C55.  If the feature bits of the lexer states record what their rules need, the feature
bits of the machine built from them record what is in its tables: without the bit for `^`
there is no row to start from at line starts, without the bit for `$` no row refers to an
end of line row, and without the bits for skipping, continuing and pushing or popping no
rule in the tables does these. -/
theorem C55_features_say {tr : Traits} (hnpos : 2 < tr.npos) {addr : Nat → Nat} {R : Rules} {sm : Internals} (hr : ReadRules tr R)
    (hR : Recorded tr.npos R) (h : buildTemp tr addr R = .ok sm) : FeaturesSay tr.npos sm :=
  Feat.featuresSay hnpos hr hR h

/-- C55.  After any calls, the feature bits of a rules object record what its rules need, if no
lexer state has both a rule with `^` and a rule with a non-greedy operator. -/
theorem C55_recorded_partial {E : TokEnv} (hE : TokEnvOk E) {tr : Traits} (hnpos : 2 < tr.npos)
    {flags : ReFlags} {cs : List Call} {o : RulesObj} (h : Careful E tr (RulesObj.new tr flags) cs o) (hn : NoBolWithLazy o) :
    Recorded tr.npos o.rules :=
  Feat.recorded (careful_objOk hE (by omega) h (new_objOk E tr flags))
    (Feat.careful_rec hE hnpos h (new_objOk E tr flags) (Feat.new_rec _ _)) hn

/-- C55.  So the machine built from them has the right feature bits. -/
theorem C55_texts_features_partial {E : TokEnv} (hE : TokEnvOk E) {tr : Traits} (hmax : E.max + 1 = charsOf tr) (hnpos : 2 < tr.npos)
    {flags : ReFlags} {cs : List Call} {o : RulesObj} (h : Careful E tr (RulesObj.new tr flags) cs o) (hn : NoBolWithLazy o)
    (hc : ∀ rs ∈ o.states, (rs.map fun r => (r.regex.map (charsetsOf tr)).sum).sum + 2 ≤ tr.npos)
    {addr : Nat → Nat} {sm : Internals} (hb : buildTemp tr addr o.rules = .ok sm) : FeaturesSay tr.npos sm :=
  C55_features_say hnpos (Null.readRules hmax (careful_objOk hE (by omega) h (new_objOk E tr flags)) hc)
    (C55_recorded_partial hE hnpos h hn) hb

/-- C55.  The feature bits of a machine are those of the lexer states of the rules, and the bit
for several lexer states, which says whether there are several. -/
theorem C55_bits {tr : Traits} {addr : Nat → Nat} {R : Rules} {sm : Internals} (hl : R.features.length = R.states.length)
    (h : buildTemp tr addr R = .ok sm) (k : Nat) : hasBit sm.features (2 ^ k) = true ↔
      (∃ f ∈ R.features, hasBit f (2 ^ k) = true) ∨ (k = 4 ∧ 1 < R.states.length) :=
  FeatOnly.bits hl h k

/-- C55.  After any calls, the feature bits of a rules object record nothing but what its rules
need, as long as the lexer states can be numbered. -/
theorem C55_only_recorded {E : TokEnv} (hE : TokEnvOk E) {tr : Traits} (hnpos : 2 < tr.npos)
    {flags : ReFlags} {cs : List Call} {o : RulesObj} (h : Careful E tr (RulesObj.new tr flags) cs o) (hlen : o.states.length ≤ tr.npos) :
    OnlyRecorded tr.npos o.rules :=
  FeatOnly.onlyRecorded (careful_objOk hE (by omega) h (new_objOk E tr flags))
    (FeatOnly.careful_only hE hnpos h (new_objOk E tr flags) (FeatOnly.new_only _ _)) hlen

/-- C55.  So the machine built from them has no feature bit that no rule needs, and has the bit
for several lexer states exactly if there are several. -/
theorem C55_texts_only {E : TokEnv} (hE : TokEnvOk E) {tr : Traits} (hnpos : 2 < tr.npos)
    {flags : ReFlags} {cs : List Call} {o : RulesObj} (h : Careful E tr (RulesObj.new tr flags) cs o) (hlen : o.states.length ≤ tr.npos)
    {addr : Nat → Nat} {sm : Internals} (hb : buildTemp tr addr o.rules = .ok sm) :
    (hasBit sm.features 16 = true ↔ 1 < o.states.length) ∧
    (hasBit sm.features 1 = true → ∃ rs ∈ o.states, ∃ r ∈ rs, Rule.Has r (· = .bol)) ∧
    (hasBit sm.features 2 = true → ∃ rs ∈ o.states, ∃ r ∈ rs, Rule.Has r (· = .eol)) ∧
    (hasBit sm.features 4 = true → ∃ rs ∈ o.states, ∃ r ∈ rs, r.id = tr.npos - 1) ∧
    (hasBit sm.features 8 = true → ∃ rs ∈ o.states, ∃ r ∈ rs, r.id = 0) ∧
    (hasBit sm.features 32 = true → ∃ rs ∈ o.states, ∃ r ∈ rs, r.popDfa = true ∨ r.pushDfa ≠ tr.npos) := by
  have hO := C55_only_recorded hE hnpos h hlen
  have hs := (careful_objOk hE (by omega) h (new_objOk E tr flags)).states
  have hl : o.features.length = o.states.length := by rw [hs.features, ← hs.states]
  have B := C55_bits (R := o.rules) hl hb
  have state : ∀ {k : Nat} {P : List Rule → Prop}, k ≠ 4 →
      (∀ (i : Nat) rs f, o.states[i]? = some rs → o.features[i]? = some f → hasBit f (2 ^ k) = true → P rs) →
      hasBit sm.features (2 ^ k) = true → ∃ rs ∈ o.states, P rs := by
    intro k P hk hP hbit
    rcases (B k).1 hbit with ⟨f, hf, g⟩ | ⟨g, _⟩
    · obtain ⟨i, hi⟩ := List.getElem?_of_mem (show f ∈ o.features from hf)
      have hlt : i < o.states.length := by rw [← hl]; exact (List.getElem?_eq_some_iff.1 hi).1
      exact ⟨_, List.getElem_mem hlt, hP i _ f (List.getElem?_eq_getElem hlt) hi g⟩
    · exact (hk g).elim
  refine ⟨?_, state (k := 0) (by decide) hO.bol, state (k := 1) (by decide) hO.eol, state (k := 2) (by decide) hO.skip,
    state (k := 3) (by decide) hO.again, state (k := 5) (by decide) hO.stack⟩
  refine (B 4).trans ⟨?_, fun g => .inr ⟨rfl, g⟩⟩
  rintro (⟨f, hf, g⟩ | ⟨_, g⟩)
  · rw [(hO.few f hf).2] at g; cases g
  · exact g

/-- C52 for rules given as texts, with any calls: flags that the machine does not need make no
difference. -/
theorem C52_texts_flags_irrelevant {E : TokEnv} (hE : TokEnvOk E) {tr : Traits} (hmax : E.max + 1 = charsOf tr) (hnpos : 2 < tr.npos)
    {flags : ReFlags} {cs : List Call} {o : RulesObj} (h : Careful E tr (RulesObj.new tr flags) cs o) (hn : NoBolWithLazy o)
    (hc : ∀ rs ∈ o.states, (rs.map fun r => (r.regex.map (charsetsOf tr)).sum).sum + 2 ≤ tr.npos)
    {addr : Nat → Nat} {sm : Internals} (hb : buildTemp tr addr o.rules = .ok sm) {bytes : Nat} {inp : List Nat}
    (hin : bytes = 1 → ∀ c ∈ inp, c < 256) {f f' : Flags} (hf : Covers f sm) (hf' : Covers f' sm)
    (ha : f.advance = f'.advance) {r r' : Results} (hr : Ready sm inp r) (hrr : SameResults (hasBit sm.features 1) r r')
    {rs : List Results} (hcs : Lexer.Calls ⟨f, tr.npos, bytes, sm, inp⟩ r rs) :
    ∃ rs', Lexer.Calls ⟨f', tr.npos, bytes, sm, inp⟩ r' rs' ∧ SameTokens (hasBit sm.features 1) rs rs' :=
  C52_flags_irrelevant_calls (C14_built_tables (obj_targets (careful_objOk hE (by omega) h (new_objOk E tr flags))) hb).1
    (C55_texts_features_partial hE hmax hnpos h hn hc hb) hin hf hf' ha hr hrr hcs

/-- C51 for rules given as texts, with any calls: the generated function (without pointers)
delivers the tokens `lookup` delivers. -/
theorem C51_texts_generated_partial {E : TokEnv} (hE : TokEnvOk E) {tr : Traits} (hmax : E.max + 1 = charsOf tr) (hnpos : 2 < tr.npos)
    {flags : ReFlags} {cs : List Call} {o : RulesObj} (h : Careful E tr (RulesObj.new tr flags) cs o) (hn : NoBolWithLazy o)
    (hc : ∀ rs ∈ o.states, (rs.map fun r => (r.regex.map (charsetsOf tr)).sum).sum + 2 ≤ tr.npos)
    {addr : Nat → Nat} {sm : Internals} (hb : buildTemp tr addr o.rules = .ok sm) (hEol : hasBit sm.features 2 = false)
    {bytes : Nat} (hby : bytes ≠ 0) {inp : List Nat} (hin : bytes = 1 → ∀ c ∈ inp, c < 256) {f : Flags} (hf : Covers f sm)
    (ha : f.advance = true) {r : Results} (hr : Ready sm inp r) (hst : StackFits sm r.stack)
    {rs : List Results} (hcs : Lexer.Calls ⟨f, tr.npos, bytes, sm, inp⟩ r rs) :
    ∃ rs', GenCalls (generate sm false) tr.npos bytes inp r rs' ∧ SameTokens (hasBit sm.features 1) rs rs' :=
  C51_generated_tokens_partial (C14_built_tables (obj_targets (careful_objOk hE (by omega) h (new_objOk E tr flags))) hb).1
    (C55_texts_features_partial hE hmax hnpos h hn hc hb) hEol hby (by intro h; cases h) hin hf ha hr hst
    (SameResults.refl _ _) hcs

namespace Ex

/-- The boolean form of `NoBolWithLazy`. -/
def noBolWithLazy (o : RulesObj) : Bool :=
  o.states.all fun rs => (rs.all fun r => r.regex.all fun t => t.type != .bol) || (rs.all fun r => r.regex.all fun t => !isLazy t.type)

theorem noBolWithLazy_ok {o : RulesObj} (h : noBolWithLazy o = true) : NoBolWithLazy o := by
  unfold noBolWithLazy at h
  simp only [List.all_eq_true, Bool.or_eq_true, bne_iff_ne, Bool.not_eq_true'] at h
  intro rs hrs
  rcases h rs hrs with h | h
  · exact .inl fun r hr ⟨t, t1, t2⟩ => h r hr t t1 t2
  · exact .inr fun r hr ⟨t, t1, t2⟩ => by
      dsimp only at t2
      rw [h r hr t t1] at t2; cases t2

/-- A lexer with rules for line starts and line ends, and with strings with a non-greedy
operator in another lexer state. -/
def featCalls : List Call :=
  [.pushState (chars "STR"), .push (chars "^a+") 2 65535, .push (chars "1$") 1 7,
   .pushIn (chars "INITIAL") (chars "[\"]") (some 3) (chars ">STR") 65535,
   .pushIn (chars "STR") (chars "x*?y|z") none (chars ".") 65535,
   .pushIn (chars "STR") (chars "[\"]") (some 4) (chars "<") 65535,
   .pushIn (chars "*") (chars "[\n ]") (some 65534) (chars ".") 65535]

def objFeat : RulesObj := runs featCalls obj0

end Ex

set_option maxRecDepth 20000 in
/-- The hypotheses are met by an object with all kinds of rules: `^`, `$`, skipped, continued,
pushing, popping and non-greedy.  Its features have all the bits. -/
example : Careful Ex.env Ex.tr (RulesObj.new Ex.tr {}) Ex.featCalls Ex.objFeat ∧ NoBolWithLazy Ex.objFeat ∧
    Ex.objFeat.features = [39, 44] ∧ Ex.env.max + 1 = charsOf Ex.tr ∧
    (∀ rs ∈ Ex.objFeat.states, (rs.map fun r => (r.regex.map (charsetsOf Ex.tr)).sum).sum + 2 ≤ Ex.tr.npos) ∧
    (∃ sm, buildTemp Ex.tr (fun n => n) Ex.objFeat.rules = .ok sm ∧ sm.features = 63) := by
  have key : Ex.callsOk Ex.featCalls Ex.obj0 = true ∧ Ex.noBolWithLazy Ex.objFeat = true ∧ Ex.objFeat.features = [39, 44] ∧
      (∀ rs ∈ Ex.objFeat.states, (rs.map fun r => (r.regex.map (charsetsOf Ex.tr)).sum).sum + 2 ≤ Ex.tr.npos) ∧
      (buildTemp Ex.tr (fun n => n) Ex.objFeat.rules).isOk = true ∧ (Ex.machine Ex.objFeat.rules).features = 63 := by
    decide +kernel
  obtain ⟨k1, k2, k3, k4, k5, k6⟩ := key
  exact ⟨Ex.careful_of _ _ k1, Ex.noBolWithLazy_ok k2, k3, rfl, k4, _, Ex.machine_ok k5, k6⟩

set_option maxRecDepth 20000 in
/-- The same for the object of `Ex.ruleCalls`, whose machine has no `$`. -/
example : NoBolWithLazy Ex.obj ∧ (∃ sm, buildTemp Ex.tr (fun n => n) Ex.obj.rules = .ok sm ∧ hasBit sm.features 2 = false ∧
    Covers Ex.fMost sm ∧ Ready sm [97, 34] (.mk' 65535 0 2) ∧ StackFits sm []) := by
  have key : Ex.noBolWithLazy Ex.obj = true ∧ (buildTemp Ex.tr (fun n => n) Ex.obj.rules).isOk = true ∧
      hasBit (Ex.machine Ex.obj.rules).features 2 = false ∧ 0 < (Ex.machine Ex.obj.rules).dfa.length := by decide +kernel
  obtain ⟨k1, k2, k3, k4⟩ := key
  exact ⟨Ex.noBolWithLazy_ok k1, _, Ex.machine_ok k2, k3, ⟨fun _ => rfl, fun _ => rfl, fun _ => rfl, fun _ => rfl⟩,
    ⟨by decide, by decide, k4, by simp [Results.mk']⟩, fun _ => by simp⟩

set_option maxRecDepth 20000 in
/-- The conditions of `C55_texts_only` are met by the object of `Ex.ruleCalls`; its machine has
two lexer states and the bit that says so. -/
example : Careful Ex.env Ex.tr (RulesObj.new Ex.tr {}) Ex.ruleCalls Ex.obj ∧ Ex.obj.states.length ≤ Ex.tr.npos ∧ 1 < Ex.obj.states.length ∧
    ∃ sm, buildTemp Ex.tr (fun n => n) Ex.obj.rules = .ok sm ∧ hasBit sm.features 16 = true ∧ hasBit sm.features 2 = false := by
  have key : (buildTemp Ex.tr (fun n => n) Ex.obj.rules).isOk = true ∧ Ex.obj.states.length ≤ Ex.tr.npos ∧ 1 < Ex.obj.states.length ∧
      hasBit (Ex.machine Ex.obj.rules).features 16 = true ∧ hasBit (Ex.machine Ex.obj.rules).features 2 = false := by decide +kernel
  obtain ⟨k1, k2, k3, k4, k5⟩ := key
  exact ⟨Ex.careful, k2, k3, _, Ex.machine_ok k1, k4, k5⟩

/-! ### The condition on `^` and non-greedy operators is needed -/

namespace Ex

/-- The rules `^a|b??c` and `x`, added to INITIAL with its name. -/
def namedCalls : List Call :=
  [.pushIn (chars "INITIAL") (chars "^a|b??c") (some 1) (chars ".") 65535, .push (chars "x") 2 65535]

/-- The same rules, added to INITIAL without its name. -/
def plainCalls : List Call := [.push (chars "^a|b??c") 1 65535, .push (chars "x") 2 65535]

def objNamed : RulesObj := runs namedCalls obj0
def objPlain : RulesObj := runs plainCalls obj0
def smNamed : Internals := machine objNamed.rules
def smPlain : Internals := machine objPlain.rules

end Ex

set_option maxRecDepth 20000 in
/-- C55 fails without the condition.  For a regex that starts with `^` and is split at `|`
because of a non-greedy operator, `push` with names of lexer states looks for the `^` in the
last part and not in the first.  The bit is missing although the table has a row for line
starts, and the other rules of the lexer state do not match at the beginning of a line: `x`
is not found there.  Given to `push` without names, the same rules find it. -/
theorem C55_named_bol_lost : Careful Ex.env Ex.tr (RulesObj.new Ex.tr {}) Ex.namedCalls Ex.objNamed ∧
    Careful Ex.env Ex.tr (RulesObj.new Ex.tr {}) Ex.plainCalls Ex.objPlain ∧
    Ex.objNamed.states = Ex.objPlain.states ∧ Ex.objNamed.features = [0] ∧ Ex.objPlain.features = [1] ∧
    buildTemp Ex.tr (fun n => n) Ex.objNamed.rules = .ok Ex.smNamed ∧
    buildTemp Ex.tr (fun n => n) Ex.objPlain.rules = .ok Ex.smPlain ∧
    ¬ FeaturesSay 65535 Ex.smNamed ∧
    (∃ r, Returns Ex.fMost 65535 1 Ex.smNamed [120] (.mk' 65535 0 1) (.ok r) ∧ r.id = 65535) ∧
    (∃ r, Returns Ex.fMost 65535 1 Ex.smPlain [120] (.mk' 65535 0 1) (.ok r) ∧ r.id = 2) := by
  have key : (Ex.callsOk Ex.namedCalls Ex.obj0 = true ∧ Ex.callsOk Ex.plainCalls Ex.obj0 = true ∧
      Ex.objNamed.states = Ex.objPlain.states ∧ Ex.objNamed.features = [0] ∧ Ex.objPlain.features = [1]) ∧
      ((buildTemp Ex.tr (fun n => n) Ex.objNamed.rules).isOk = true ∧ hasBit Ex.smNamed.features 1 = false ∧
        (Ex.smNamed.dfa.any fun rows => rows[0]?.any fun row => row[0]? != some 0) = true ∧
        (lookupFuel Ex.fMost 65535 1 Ex.smNamed [120] 3 (.mk' 65535 0 1)).toOption = some ⟨65535, 65535, 0, 1, 1, false, 0, []⟩) ∧
      (buildTemp Ex.tr (fun n => n) Ex.objPlain.rules).isOk = true ∧
        (lookupFuel Ex.fMost 65535 1 Ex.smPlain [120] 3 (.mk' 65535 0 1)).toOption = some ⟨2, 65535, 0, 1, 1, false, 0, []⟩ := by
    decide +kernel
  obtain ⟨⟨k1, k2, k3, k4, k5⟩, ⟨k6, k7, k8, k9⟩, k10, k11⟩ := key
  refine ⟨Ex.careful_of _ _ k1, Ex.careful_of _ _ k2, k3, k4, k5, Ex.machine_ok k6, Ex.machine_ok k10, ?_,
    ⟨_, call_of k9, rfl⟩, ⟨_, call_of k11, rfl⟩⟩
  intro h
  simp only [List.any_eq_true, Option.any_eq_true, bne_iff_ne] at k8
  obtain ⟨rows, r1, row, r2, r3⟩ := k8
  exact r3 (h.bol k7 rows r1 row r2)

end Lexertl.Props
