import Verif.Proofs.MemoryFile

/-
C57: memory files.
-/
namespace Lexertl.Props
open Lexertl MemFile

/-- C57.  After any history of any number of memory files, whatever the operating system
answered and whatever the rest of the program did with descriptors and pages of its own: an
object that mapped a file and was not closed since gives an address and the number of whole
characters in the file, and the bytes of these characters, read at that address, are those of
the file; every other object gives a null pointer and the size 0. -/
theorem C57_shows_file (E : Env) (hp : 0 < E.pageSize) (w w' : World) (hw : w.Start) (ops : List Op)
    (h : Run E w ops w') (i : Nat) (m : MemFile) (hm : w'.objs i = some m) :
    match shown i ops none with
    | none => m.data = none ∧ m.size = 0
    | some f => ∃ b, m.data = some b ∧ 0 < b ∧ m.size = (E.file f).length / E.charSize ∧
        ∀ k, k < m.size * E.charSize → w'.os.byte E (b * E.pageSize + k) = (E.file f)[k]? ∧ k < (E.file f).length := by
  have h1 := run_shows hp (start_ok hw) h (i := i) (cur := none) (fun m hm => by rw [hw.noObjs] at hm; simp at hm) m hm
  cases hs : shown i ops none with
  | none => rw [hs] at h1; exact h1
  | some f =>
    rw [hs] at h1
    obtain ⟨b, h2, h0, h3, h4⟩ := h1
    refine ⟨b, h2, h0, h3, fun k hk => ?_⟩
    have hk' : k < (E.file f).length := by
      rw [h3] at hk
      exact Nat.lt_of_lt_of_le hk (Nat.div_mul_le_self _ _)
    exact ⟨byte_mapped hp h4 hk', hk'⟩

/-- C57.  A call of a member function of one object, after any history, leaves alone every
descriptor and every page that this object did not ask for: those of other objects and those of
the rest of the program stay open and mapped as they were. -/
theorem C57_touches_only_its_own (E : Env) (hp : 0 < E.pageSize) (w w' w'' : World) (hw : w.Start) (ops : List Op)
    (h : Run E w ops w') (op : Op) (i : Nat) (hi : op.uses i = true) (hs : Step E w' op w'') :
    (∀ fd o, o ≠ some i → (w'.os.fds fd = some o ↔ w''.os.fds fd = some o)) ∧
      (∀ p g, g.owner ≠ some i → (w'.os.pages p = some g ↔ w''.os.pages p = some g)) ∧
      ∀ j, j ≠ i → w''.objs j = w'.objs j := by
  obtain ⟨h1, h2, _⟩ := step_apart hp (run_ok hp (start_ok hw) h) hs hi
  exact ⟨h1.fds, h1.pages, h2⟩

theorem start_pages {E : Env} {w : World} (hw : w.Start) (i : Nat) : PagesOf E w i := fun p g hg ho => by
  rw [hw.pages p g hg] at ho; simp at ho

theorem start_fds {w : World} (hw : w.Start) (i : Nat) : FdsOf w i false :=
  ⟨fun fd h => absurd h (hw.fds fd i), fun _ _ _ _ fd => hw.fds fd i⟩

/-- C57.  For characters of one byte: after any history, `close` and the destructor leave no
page mapped that the object asked for. -/
theorem C57_unmaps (E : Env) (hp : 0 < E.pageSize) (hc : E.charSize = 1) (w w' w'' : World) (hw : w.Start)
    (ops : List Op) (h : Run E w ops w') (i : Nat)
    (hs : Step E w' (.close i) w'' ∨ Step E w' (.destroy i) w'') :
    ∀ p g, w''.os.pages p = some g → g.owner ≠ some i := by
  have hq := run_pages hp hc (start_ok hw) h (start_pages hw i)
  rcases hs with hs | hs
  · cases hs with | close hm => exact close_pages hm hq
  · cases hs with | destroy hm => exact close_pages hm hq

/-- C57.  For characters of one byte: `close` and the destructor leave nothing that the object
asked for, neither a page nor a descriptor.  Missing: objects that got descriptor 0
(`C57_descriptor_zero`), that were opened again after a file that was opened and not mapped
(`C57_lost_descriptor`), and wide characters (`C57_wide_pages_stay`). -/
theorem C57_releases_partial (E : Env) (hp : 0 < E.pageSize) (hc : E.charSize = 1) (w w' w'' : World) (hw : w.Start)
    (ops : List Op) (h : Run E w ops w') (i : Nat) (hcare : Careful i ops false)
    (hs : Step E w' (.close i) w'' ∨ Step E w' (.destroy i) w'') : w''.os.NothingOf i := by
  obtain ⟨held, hq⟩ := run_fds hp (start_ok hw) h hcare (start_fds hw i)
  refine ⟨?_, C57_unmaps E hp hc w w' w'' hw ops h i hs⟩
  rcases hs with hs | hs
  · cases hs with | close hm => exact close_fds hm hq
  · cases hs with | destroy hm => exact close_fds hm hq

/-- C57.  An object that opened a file and could not map it (an empty file, for one) keeps the
descriptor, and when it is opened again, the descriptor stays open whatever happens from then
on: not even the destructor closes it. -/
theorem C57_lost_descriptor (E : Env) (hp : 0 < E.pageSize) (w w1 w2 w3 w4 : World) (hw : w.Start)
    (ops ops' : List Op) (h : Run E w ops w1) (i f f' fd : Nat) (a : Answer)
    (h1 : Step E w1 (.open i f (.noMap fd)) w2) (h2 : Step E w2 (.open i f' a) w3) (h3 : Run E w3 ops' w4) :
    w4.os.fds fd = some (some i) := by
  have ok1 := run_ok hp (start_ok hw) h
  have ok2 := step_ok hp ok1 h1
  have ok3 := step_ok hp ok2 h2
  refine (run_lost hp ok3 h3 (i := i) (fd := fd) ?_).1
  cases h1 with
  | «open» hm hl =>
    rename_i m
    cases h2 with
    | «open» hm2 hl2 =>
      rename_i m2
      simp [World.set, openFile] at hm2
      subst hm2
      have hre : ∀ os : Os, reopen E os ⟨none, (reopen E w1.os m).2.size, fd⟩ =
          (os, ⟨none, (reopen E w1.os m).2.size, fd⟩) := by intro os; simp [reopen]
      have hfd : ((reopen E w1.os m).1.opened (some i) fd).fds fd = some (some i) := by simp [Os.opened]
      simp only [openFile] at hl2
      rw [hre] at hl2
      have ne : ∀ n : Nat, ((reopen E w1.os m).1.opened (some i) fd).fds n = none → fd ≠ n := by
        intro n hn he; subst he; rw [hfd] at hn; simp at hn
      cases a with
      | noFile =>
        refine ⟨by simp only [openFile]; rw [hre]; exact hfd, fun m' hm' => ?_⟩
        simp [World.set, openFile] at hm'; subst hm'; left; dsimp only; omega
      | noStat n =>
        have := ne n hl2
        refine ⟨?_, fun m' hm' => ?_⟩
        · simp only [openFile]; rw [hre]; simp only [Os.opened]; simp [this]
        · simp [World.set, openFile] at hm'; subst hm'; left; dsimp only; omega
      | noMap n =>
        have := ne n hl2
        refine ⟨?_, fun m' hm' => ?_⟩
        · simp only [openFile]; rw [hre]; simp only [Os.opened]; simp [this]
        · simp [World.set, openFile] at hm'; subst hm'; left; dsimp only; omega
      | mapped n b =>
        have := ne n hl2.1
        refine ⟨?_, fun m' hm' => ?_⟩
        · simp only [openFile]; rw [hre]; simp only [Os.opened, Os.mmap]; simp [this]
        · simp [World.set, openFile] at hm'; subst hm'; left; dsimp only; omega

/-- C57.  When a program has closed its standard input, `open` may give descriptor 0; the object
never closes it. -/
theorem C57_descriptor_zero (E : Env) (hp : 0 < E.pageSize) (w w1 w2 w3 : World) (hw : w.Start)
    (ops ops' : List Op) (h : Run E w ops w1) (i f b : Nat)
    (h1 : Step E w1 (.open i f (.mapped 0 b)) w2) (h3 : Run E w2 ops' w3) :
    w3.os.fds 0 = some (some i) := by
  have ok1 := run_ok hp (start_ok hw) h
  have ok2 := step_ok hp ok1 h1
  refine (run_lost hp ok2 h3 (i := i) (fd := 0) ?_).1
  cases h1 with
  | «open» hm hl =>
    refine ⟨by simp [openFile, Os.opened, Os.mmap], fun m' hm' => ?_⟩
    simp [World.set, openFile] at hm'; subst hm'; right; rfl

/-- C57.  `close` gives `munmap` the number of characters, not of bytes: of a file of wide
characters the pages after that many bytes stay mapped. -/
theorem C57_wide_pages_stay (E : Env) (w1 w2 w3 : World) (i f fd b : Nat)
    (h1 : Step E w1 (.open i f (.mapped fd b)) w2) (h2 : Step E w2 (.close i) w3) (p : Nat)
    (hp1 : b + E.pagesOf ((E.file f).length / E.charSize) ≤ p) (hp2 : p < b + E.pagesOf (E.file f).length) :
    w3.os.pages p = some ⟨some i, f, p - b⟩ := by
  cases h1 with
  | «open» hm hl =>
    cases h2 with
    | close hm2 =>
      simp [World.set, openFile] at hm2
      subst hm2
      have key : ∀ (os : Os) (n : Int), (if n ≠ 0 then os.close n else os).pages = os.pages := by
        intro os n; split
        · unfold Os.close; split <;> rfl
        · rfl
      simp only [close]
      rw [key]
      simp only [Os.munmap, openFile, Os.mmap]
      rw [if_neg (by omega), if_pos (by omega)]

/-! ### A concrete history

Pages of 4 bytes.  File 0 is empty, file 1 has the six bytes `abcdef`.  The rest of the program
has descriptors 0 to 2 open and page 2 mapped. -/

namespace MemExample

def env (charSize : Nat) : Env := ⟨charSize, 4, fun f => if f = 1 then [97, 98, 99, 100, 101, 102] else []⟩

def w0 : World := ⟨⟨fun fd => if fd < 3 then some none else none,
  fun p => if p = 2 then some ⟨none, 0, 0⟩ else none⟩, fun _ => none⟩

theorem w0_start : w0.Start where
  noObjs := fun _ => rfl
  fds := fun fd i => by
    show (if fd < 3 then some none else none : Option Owner) ≠ _
    split <;> simp
  pages := fun p g h => by
    have h : (if p = 2 then some (⟨none, 0, 0⟩ : Page) else none) = some g := h
    split at h
    · simp at h; subst h; rfl
    · simp at h

theorem legal (n : Nat) (os : Os) (fd b : Nat) (h1 : os.fds fd = none) (h2 : 0 < b) (h3 : os.pages b = none)
    (h4 : os.pages (b + 1) = none) : Answer.legal (env n) os 1 (.mapped fd b) := by
  refine ⟨h1, h2, by simp [env], fun p hp hq => ?_⟩
  simp [Env.pagesOf, env] at hq
  by_cases hb : p = b
  · rw [hb]; exact h3
  · have : p = b + 1 := by omega
    rw [this]; exact h4

/-- Two objects open the file, one of them after a path that does not exist and once more
later. -/
def ops : List Op := [.new 0, .new 1, .open 0 5 .noFile, .open 0 1 (.mapped 3 3), .open 1 1 (.mapped 4 5),
  .otherOpen 7, .open 0 1 (.mapped 3 3)]

/-- The history happens, object 0 shows file 1, and it can be closed. -/
example : ∃ w' m w'', Run (env 1) w0 ops w' ∧ w'.objs 0 = some m ∧ Careful 0 ops false ∧
    shown 0 ops none = some 1 ∧ m = ⟨some 3, 6, 3⟩ ∧ Step (env 1) w' (.close 0) w'' :=
  ⟨_, _, _, .cons (.new rfl) (.cons (.new rfl) (.cons (.open rfl trivial)
      (.cons (.open rfl (legal 1 _ _ _ rfl (by decide) rfl rfl)) (.cons (.open rfl (legal 1 _ _ _ rfl (by decide) rfl rfl))
        (.cons (.otherOpen rfl) (.cons (.open rfl (legal 1 _ _ _ rfl (by decide) rfl rfl)) .nil)))))), rfl,
    by simp [ops, Careful], rfl, rfl, .close rfl⟩

/-- An empty file is opened and cannot be mapped; then the other one is opened, and the object is
destroyed. -/
example : ∃ w1 w2 w3 w4, Run (env 1) w0 [.new 0] w1 ∧ Step (env 1) w1 (.open 0 0 (.noMap 3)) w2 ∧
    Step (env 1) w2 (.open 0 1 (.mapped 4 3)) w3 ∧ Run (env 1) w3 [.destroy 0] w4 :=
  ⟨_, _, _, _, .cons (.new rfl) .nil, .open rfl rfl, .open rfl (legal 1 _ _ _ rfl (by decide) rfl rfl),
    .cons (.destroy rfl) .nil⟩

/-- Standard input is closed, and the next file gets its descriptor. -/
example : ∃ w1 w2 w3, Run (env 1) w0 [.new 0, .otherClose 0] w1 ∧ Step (env 1) w1 (.open 0 1 (.mapped 0 3)) w2 ∧
    Run (env 1) w2 [.close 0, .destroy 0] w3 :=
  ⟨_, _, _, .cons (.new rfl) (.cons (.otherClose rfl) .nil), .open rfl (legal 1 _ _ _ rfl (by decide) rfl rfl),
    .cons (.close rfl) (.cons (.destroy rfl) .nil)⟩

/-- Characters of 4 bytes: the file takes pages 3 and 4, and page 4 stays. -/
example : ∃ w1 w2 w3, Run (env 4) w0 [.new 0] w1 ∧ Step (env 4) w1 (.open 0 1 (.mapped 3 3)) w2 ∧
    Step (env 4) w2 (.close 0) w3 ∧ 3 + (env 4).pagesOf (((env 4).file 1).length / (env 4).charSize) ≤ 4 ∧
    4 < 3 + (env 4).pagesOf ((env 4).file 1).length :=
  ⟨_, _, _, .cons (.new rfl) .nil, .open rfl (legal 4 _ _ _ rfl (by decide) rfl rfl), .close rfl, by decide, by decide⟩

end MemExample
end Lexertl.Props
