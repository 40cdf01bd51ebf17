import Verif.Spec.MemoryFile

/-
Proofs about memory files: what is owned by whom.
-/
namespace Lexertl.MemFile

variable {E : Env}

/-- What holds of object `i` with members `m`. -/
structure ObjOk (E : Env) (os : Os) (i : Nat) (m : MemFile) : Prop where
  fd : 0 < m.fh → os.fds m.fh.toNat = some (some i)
  fdMin : -1 ≤ m.fh
  null : m.data = none → m.size = 0
  data : ∀ b, m.data = some b → ∃ f : Nat, E.file f ≠ [] ∧ m.size = (E.file f).length / E.charSize ∧
    0 ≤ m.fh ∧ ∀ p, b ≤ p → p < b + E.pagesOf (E.file f).length → os.pages p = some ⟨some i, f, p - b⟩

/-- Every object is in order. -/
def Ok (E : Env) (w : World) : Prop := ∀ i m, w.objs i = some m → ObjOk E w.os i m

/-- What is the same for everyone but `i`. -/
structure Apart (i : Nat) (os os' : Os) : Prop where
  fds : ∀ fd o, o ≠ some i → (os.fds fd = some o ↔ os'.fds fd = some o)
  pages : ∀ p g, g.owner ≠ some i → (os.pages p = some g ↔ os'.pages p = some g)

theorem pagesOf_mono (hp : 0 < E.pageSize) {a b : Nat} (h : a ≤ b) : E.pagesOf a ≤ E.pagesOf b := by
  unfold Env.pagesOf
  exact Nat.div_le_div_right (by omega)

theorem Apart.refl (i : Nat) (os : Os) : Apart i os os := ⟨fun _ _ _ => Iff.rfl, fun _ _ _ => Iff.rfl⟩

theorem Apart.trans {i : Nat} {a b c : Os} (h : Apart i a b) (k : Apart i b c) : Apart i a c :=
  ⟨fun fd o ho => (h.fds fd o ho).trans (k.fds fd o ho), fun p g hg => (h.pages p g hg).trans (k.pages p g hg)⟩

theorem ObjOk.apart {i j : Nat} {os os' : Os} {m : MemFile} (h : ObjOk E os j m) (ha : Apart i os os')
    (hij : j ≠ i) : ObjOk E os' j m where
  fd := fun hf => (ha.fds _ _ (by simpa using hij)).mp (h.fd hf)
  fdMin := h.fdMin
  null := h.null
  data := fun b hb => by
    obtain ⟨f, h1, h2, h3, h4⟩ := h.data b hb
    exact ⟨f, h1, h2, h3, fun p hp hq => (ha.pages _ _ (by simpa using hij)).mp (h4 p hp hq)⟩

theorem apart_close {i : Nat} {os : Os} {fd : Int} (h : 0 ≤ fd → os.fds fd.toNat = some (some i)) :
    Apart i os (os.close fd) := by
  unfold Os.close
  split
  · rename_i hf
    refine ⟨fun n o ho => ?_, fun _ _ _ => Iff.rfl⟩
    dsimp only
    split
    · rename_i hn; subst hn
      rw [h hf]
      constructor
      · intro hh; simp at hh; exact absurd hh.symm ho
      · intro hh; simp at hh
    · exact Iff.rfl
  · exact Apart.refl _ _

theorem apart_munmap {i : Nat} {os : Os} {b n : Nat}
    (h : ∀ p, b ≤ p → p < b + E.pagesOf n → ∃ g : Page, os.pages p = some g ∧ g.owner = some i) :
    Apart i os (os.munmap E b n) := by
  unfold Os.munmap
  refine ⟨fun _ _ _ => Iff.rfl, fun p g hg => ?_⟩
  dsimp only
  split
  · rename_i hp
    obtain ⟨g', h1, h2⟩ := h p hp.1 hp.2
    rw [h1]
    constructor
    · intro hh; simp at hh; subst hh; exact absurd h2 hg
    · intro hh; simp at hh
  · exact Iff.rfl

theorem apart_opened {i fd : Nat} {os : Os} (h : os.fds fd = none) : Apart i os (os.opened (some i) fd) := by
  unfold Os.opened
  refine ⟨fun n o ho => ?_, fun _ _ _ => Iff.rfl⟩
  dsimp only
  split
  · rename_i hn; subst hn
    rw [h]
    constructor
    · intro hh; simp at hh
    · intro hh; simp at hh; exact absurd hh.symm ho
  · exact Iff.rfl

theorem apart_mmap {i f b : Nat} {os : Os}
    (h : ∀ p, b ≤ p → p < b + E.pagesOf (E.file f).length → os.pages p = none) :
    Apart i os (os.mmap E (some i) f b) := by
  unfold Os.mmap
  refine ⟨fun _ _ _ => Iff.rfl, fun p g hg => ?_⟩
  dsimp only
  split
  · rename_i hp
    rw [h p hp.1 hp.2]
    constructor
    · intro hh; simp at hh
    · intro hh; simp at hh; subst hh; exact absurd rfl hg
  · exact Iff.rfl

theorem close_data (os : Os) (m : MemFile) : (close E os m).2.data = none := by
  unfold close; cases h : m.data <;> simp [h]

theorem close_fh (os : Os) (m : MemFile) : (close E os m).2.fh = 0 := by
  unfold close; cases h : m.data <;> simp

theorem close_size {os : Os} {i : Nat} {m : MemFile} (h : ObjOk E os i m) : (close E os m).2.size = 0 := by
  unfold close
  cases h' : m.data with
  | none => simpa using h.null h'
  | some b => simp


theorem munmap_own {os : Os} {i : Nat} {m : MemFile} (hp : 0 < E.pageSize) (h : ObjOk E os i m) {b : Nat}
    (hb : m.data = some b) :
    ∀ p, b ≤ p → p < b + E.pagesOf m.size → ∃ g : Page, os.pages p = some g ∧ g.owner = some i := by
  obtain ⟨f, _, h2, _, h4⟩ := h.data b hb
  intro p hp1 hp2
  refine ⟨_, h4 p hp1 ?_, rfl⟩
  have := pagesOf_mono (E := E) hp (Nat.div_le_self (E.file f).length E.charSize)
  rw [h2] at hp2
  omega

theorem close_apart {os : Os} {i : Nat} {m : MemFile} (hp : 0 < E.pageSize) (h : ObjOk E os i m) :
    Apart i os (close E os m).1 := by
  unfold close
  cases hd : m.data with
  | none =>
    dsimp only
    split
    · rename_i h0
      exact apart_close (fun hf => h.fd (by omega))
    · exact Apart.refl _ _
  | some b =>
    dsimp only
    have h1 := apart_munmap (munmap_own hp h hd)
    split
    · rename_i h0
      refine h1.trans (apart_close (fun hf => ?_))
      exact h.fd (by omega)
    · exact h1

theorem ok_closed (os : Os) (i : Nat) : ObjOk E os i ⟨none, 0, 0⟩ :=
  ⟨fun h => absurd h (by simp), by simp, fun _ => rfl, fun b hb => by simp at hb⟩

theorem close_eq {os : Os} {i : Nat} {m : MemFile} (h : ObjOk E os i m) : (close E os m).2 = ⟨none, 0, 0⟩ := by
  have h1 := close_data (E := E) os m
  have h2 := close_fh (E := E) os m
  have h3 := close_size h
  cases hc : (close E os m).2 with
  | mk d s f => rw [hc] at h1 h2 h3; simp at h1 h2 h3; simp [h1, h2, h3]

theorem reopen_ok {os : Os} {i : Nat} {m : MemFile} (h : ObjOk E os i m) :
    ObjOk E (reopen E os m).1 i (reopen E os m).2 ∧ (reopen E os m).2.data = none ∧
      (reopen E os m).2.size = 0 := by
  unfold reopen
  split
  · rw [close_eq h]; exact ⟨ok_closed _ _, rfl, rfl⟩
  · rename_i hd
    have hd : m.data = none := by simpa using hd
    exact ⟨h, hd, h.null hd⟩

theorem reopen_apart {os : Os} {i : Nat} {m : MemFile} (hp : 0 < E.pageSize) (h : ObjOk E os i m) :
    Apart i os (reopen E os m).1 := by
  unfold reopen
  split
  · exact close_apart hp h
  · exact Apart.refl _ _

theorem open_apart {os : Os} {i f : Nat} {a : Answer} {m : MemFile} (hp : 0 < E.pageSize) (h : ObjOk E os i m)
    (hl : a.legal E (reopen E os m).1 f) : Apart i os (openFile E i f a os m).1 := by
  have h1 := reopen_apart hp h
  unfold openFile
  cases a with
  | noFile => exact h1
  | noStat fd => exact h1.trans (apart_opened hl)
  | noMap fd => exact h1.trans (apart_opened hl)
  | mapped fd b =>
    exact (h1.trans (apart_opened hl.1)).trans (apart_mmap hl.2.2.2)

theorem open_ok {os : Os} {i f : Nat} {a : Answer} {m : MemFile} (h : ObjOk E os i m)
    (hl : a.legal E (reopen E os m).1 f) :
    ObjOk E (openFile E i f a os m).1 i (openFile E i f a os m).2 := by
  obtain ⟨_, h2, h3⟩ := reopen_ok h
  unfold openFile
  cases a with
  | noFile => exact ⟨fun hf => absurd hf (by simp), by simp, fun _ => h3, fun b hb => by simp [h2] at hb⟩
  | noStat fd =>
    refine ⟨fun hf => ?_, by dsimp only; omega, fun _ => h3, fun b hb => by simp [h2] at hb⟩
    simp [Os.opened]
  | noMap fd =>
    refine ⟨fun hf => ?_, by dsimp only; omega, fun _ => h3, fun b hb => by simp at hb⟩
    simp [Os.opened]
  | mapped fd b =>
    refine ⟨fun hf => ?_, by dsimp only; omega, fun hd => by simp at hd, fun b' hb => ?_⟩
    · simp [Os.opened, Os.mmap]
    · simp only [Option.some.injEq] at hb
      subst hb
      refine ⟨f, hl.2.2.1, rfl, by simp, fun p hp hq => ?_⟩
      simp only [Os.mmap]
      rw [if_pos ⟨hp, hq⟩]


/-- What the rest of the program does leaves the things of all objects alone. -/
structure Kept (os os' : Os) : Prop where
  fds : ∀ fd i, os.fds fd = some (some i) ↔ os'.fds fd = some (some i)
  pages : ∀ p g i, g.owner = some i → (os.pages p = some g ↔ os'.pages p = some g)

theorem ObjOk.kept {j : Nat} {os os' : Os} {m : MemFile} (h : ObjOk E os j m) (ha : Kept os os') :
    ObjOk E os' j m where
  fd := fun hf => (ha.fds _ _).mp (h.fd hf)
  fdMin := h.fdMin
  null := h.null
  data := fun b hb => by
    obtain ⟨f, h1, h2, h3, h4⟩ := h.data b hb
    exact ⟨f, h1, h2, h3, fun p hp hq => (ha.pages _ _ j rfl).mp (h4 p hp hq)⟩

/-- What a step of the rest of the program does. -/
theorem step_kept {w w' : World} {op : Op} (h : Step E w op w') (ho : ∀ i, op.uses i = false) :
    Kept w.os w'.os ∧ w'.objs = w.objs := by
  cases h with
  | new _ => rename_i i _; simpa [Op.uses] using ho i
  | «open» _ _ => rename_i i _ _ _ _ _; simpa [Op.uses] using ho i
  | close _ => rename_i i _ _; simpa [Op.uses] using ho i
  | destroy _ => rename_i i _ _; simpa [Op.uses] using ho i
  | otherOpen h =>
    refine ⟨⟨fun n j => ?_, fun _ _ _ _ => Iff.rfl⟩, rfl⟩
    simp only [Os.opened]
    split
    · rename_i hn; subst hn; simp [h]
    · exact Iff.rfl
  | otherClose h =>
    refine ⟨⟨fun n j => ?_, fun p g i hg => ?_⟩, rfl⟩
    · simp only [Os.close]
      rw [if_pos (by omega)]
      dsimp only
      split
      · rename_i hn; subst hn; simp at *; simp [h]
      · exact Iff.rfl
    · simp only [Os.close]
      rw [if_pos (by omega)]
  | otherMap h =>
    refine ⟨⟨fun n j => Iff.rfl, fun q g i hg => ?_⟩, rfl⟩
    dsimp only
    split
    · rename_i hn; subst hn
      rw [h]
      constructor
      · intro hh; simp at hh
      · intro hh; simp at hh; subst hh; simp at hg
    · exact Iff.rfl
  | otherUnmap h h2 =>
    refine ⟨⟨fun n j => Iff.rfl, fun q g i hg => ?_⟩, rfl⟩
    dsimp only
    split
    · rename_i hn; subst hn
      rw [h]
      constructor
      · intro hh; simp at hh; subst hh; rw [h2] at hg; simp at hg
      · intro hh; simp at hh
    · exact Iff.rfl

/-- Each step is by one object, or by none. -/
theorem step_apart {w w' : World} {op : Op} (hp : 0 < E.pageSize) (hw : Ok E w) (h : Step E w op w') {i : Nat}
    (hu : op.uses i = true) : Apart i w.os w'.os ∧ (∀ j, j ≠ i → w'.objs j = w.objs j) ∧
      ∀ m, w'.objs i = some m → ObjOk E w'.os i m := by
  cases h with
  | new h =>
    simp [Op.uses] at hu; subst hu
    refine ⟨Apart.refl _ _, fun j hj => by simp [World.set, hj], fun m hm => ?_⟩
    simp [World.set] at hm; subst hm; exact ok_closed _ _
  | «open» h hl =>
    simp [Op.uses] at hu; subst hu
    refine ⟨open_apart hp (hw _ _ h) hl, fun j hj => by simp [World.set, hj], fun m hm => ?_⟩
    simp [World.set] at hm; subst hm; exact open_ok (hw _ _ h) hl
  | close h =>
    simp [Op.uses] at hu; subst hu
    refine ⟨close_apart hp (hw _ _ h), fun j hj => by simp [World.set, hj], fun m hm => ?_⟩
    simp [World.set] at hm; subst hm; rw [close_eq (hw _ _ h)]; exact ok_closed _ _
  | destroy h =>
    simp [Op.uses] at hu; subst hu
    refine ⟨close_apart hp (hw _ _ h), fun j hj => by simp [World.set, hj], fun m hm => ?_⟩
    simp [World.set] at hm
  | otherOpen h => simp [Op.uses] at hu
  | otherClose h => simp [Op.uses] at hu
  | otherMap h => simp [Op.uses] at hu
  | otherUnmap h h2 => simp [Op.uses] at hu

theorem uses_or (op : Op) : (∃ i, op.uses i = true) ∨ ∀ i, op.uses i = false := by
  cases op <;> simp [Op.uses]

theorem uses_ne {op : Op} {i j : Nat} (h : op.uses i = true) (hj : j ≠ i) : op.uses j = false := by
  cases op <;> simp_all [Op.uses] <;> omega

theorem step_ok {w w' : World} {op : Op} (hp : 0 < E.pageSize) (hw : Ok E w) (h : Step E w op w') : Ok E w' := by
  intro j m hm
  rcases uses_or op with ⟨i, hi⟩ | hn
  · obtain ⟨h1, h2, h3⟩ := step_apart hp hw h hi
    by_cases hj : j = i
    · subst hj; exact h3 m hm
    · rw [h2 j hj] at hm
      exact (hw j m hm).apart h1 hj
  · obtain ⟨h1, h2⟩ := step_kept h hn
    rw [h2] at hm
    exact (hw j m hm).kept h1

theorem run_ok {w w' : World} {ops : List Op} (hp : 0 < E.pageSize) (hw : Ok E w) (h : Run E w ops w') : Ok E w' := by
  induction h with
  | nil => exact hw
  | cons h _ ih => exact ih (step_ok hp hw h)

theorem start_ok {w : World} (h : w.Start) : Ok E w := fun i m hm => by rw [h.noObjs] at hm; simp at hm

/-- Object `i`, if there is one, shows the file `cur`. -/
def Shows (E : Env) (w : World) (i : Nat) (cur : Option Nat) : Prop :=
  ∀ m, w.objs i = some m →
    match cur with
    | none => m.data = none ∧ m.size = 0
    | some f => ∃ b, m.data = some b ∧ 0 < b ∧ m.size = (E.file f).length / E.charSize ∧
        ∀ p, b ≤ p → p < b + E.pagesOf (E.file f).length → w.os.pages p = some ⟨some i, f, p - b⟩

theorem Shows.apart {w w' : World} {i j : Nat} {cur : Option Nat} (h : Shows E w j cur) (ha : Apart i w.os w'.os)
    (hj : j ≠ i) (ho : w'.objs j = w.objs j) : Shows E w' j cur := by
  intro m hm
  rw [ho] at hm
  have := h m hm
  cases cur with
  | none => exact this
  | some f =>
    obtain ⟨b, h1, h0, h2, h3⟩ := this
    exact ⟨b, h1, h0, h2, fun p hp hq => (ha.pages _ _ (by simpa using hj)).mp (h3 p hp hq)⟩

theorem Shows.kept {w w' : World} {j : Nat} {cur : Option Nat} (h : Shows E w j cur) (ha : Kept w.os w'.os)
    (ho : w'.objs = w.objs) : Shows E w' j cur := by
  intro m hm
  rw [ho] at hm
  have := h m hm
  cases cur with
  | none => exact this
  | some f =>
    obtain ⟨b, h1, h0, h2, h3⟩ := this
    exact ⟨b, h1, h0, h2, fun p hp hq => (ha.pages _ _ j rfl).mp (h3 p hp hq)⟩

theorem shown_other {op : Op} {i : Nat} (h : op.uses i = false) (ops : List Op) (cur : Option Nat) :
    shown i (op :: ops) cur = shown i ops cur := by
  cases op with
  | «open» j f a => cases a <;> simp_all [Op.uses, shown]
  | _ => simp_all [Op.uses, shown]

/-- One step. -/
theorem step_shows {w w' : World} {op : Op} {i : Nat} {cur : Option Nat} (hp : 0 < E.pageSize) (hw : Ok E w)
    (h : Step E w op w') (hs : Shows E w i cur) : Shows E w' i (shown i [op] cur) := by
  cases hu : op.uses i with
  | false =>
    rw [shown_other hu]
    rcases uses_or op with ⟨k, hk⟩ | hn
    · obtain ⟨h1, h2, _⟩ := step_apart hp hw h hk
      have hik : i ≠ k := by intro he; subst he; rw [hk] at hu; simp at hu
      exact hs.apart h1 hik (h2 i hik)
    · obtain ⟨h1, h2⟩ := step_kept h hn
      exact hs.kept h1 h2
  | true =>
    intro m hm
    cases h with
    | new h =>
      simp [Op.uses] at hu; subst hu
      simp [World.set] at hm; subst hm; simp [shown, MemFile.new]
    | «open» h hl =>
      rename_i j f a m0
      simp [Op.uses] at hu; subst hu
      simp [World.set] at hm; subst hm
      obtain ⟨_, h2, h3⟩ := reopen_ok (hw _ _ h)
      cases a with
      | noFile => simp [shown, openFile, h2, h3]
      | noStat fd => simp [shown, openFile, h2, h3]
      | noMap fd => simp [shown, openFile, h3]
      | mapped fd b =>
        simp only [shown, if_pos]
        refine ⟨b, rfl, hl.2.1, rfl, fun p hp hq => ?_⟩
        simp only [openFile, Os.mmap]
        rw [if_pos ⟨hp, hq⟩]
    | close h =>
      simp [Op.uses] at hu; subst hu
      simp [World.set] at hm; subst hm; rw [close_eq (hw _ _ h)]; simp [shown]
    | destroy h =>
      simp [Op.uses] at hu; subst hu
      simp [World.set] at hm
    | otherOpen h => simp [Op.uses] at hu
    | otherClose h => simp [Op.uses] at hu
    | otherMap h => simp [Op.uses] at hu
    | otherUnmap h h2 => simp [Op.uses] at hu

theorem shown_cons (i : Nat) (op : Op) (ops : List Op) (cur : Option Nat) :
    shown i (op :: ops) cur = shown i ops (shown i [op] cur) := by
  cases op with
  | «open» j f a => cases a <;> simp [shown]
  | _ => simp [shown]

theorem run_shows {w w' : World} {ops : List Op} {i : Nat} {cur : Option Nat} (hp : 0 < E.pageSize) (hw : Ok E w)
    (h : Run E w ops w') (hs : Shows E w i cur) : Shows E w' i (shown i ops cur) := by
  induction h generalizing cur with
  | nil => exact hs
  | cons h _ ih =>
    rw [shown_cons]
    exact ih (step_ok hp hw h) (step_shows hp hw h hs)

/-- The bytes of a mapped file. -/
theorem byte_mapped {os : Os} {b f k : Nat} {who : Owner} (hp : 0 < E.pageSize)
    (h : ∀ p, b ≤ p → p < b + E.pagesOf (E.file f).length → os.pages p = some ⟨who, f, p - b⟩)
    (hk : k < (E.file f).length) : os.byte E (b * E.pageSize + k) = (E.file f)[k]? := by
  have h1 : (b * E.pageSize + k) / E.pageSize = b + k / E.pageSize := by
    rw [Nat.add_comm, Nat.add_mul_div_right _ _ hp, Nat.add_comm]
  have h2 : (b * E.pageSize + k) % E.pageSize = k % E.pageSize := by
    rw [Nat.add_comm, Nat.add_mul_mod_self_right]
  have h3 : k / E.pageSize < E.pagesOf (E.file f).length := by
    unfold Env.pagesOf
    rw [Nat.div_lt_iff_lt_mul hp]
    have := Nat.div_add_mod ((E.file f).length + E.pageSize - 1) E.pageSize
    have h4 := Nat.mod_lt ((E.file f).length + E.pageSize - 1) hp
    rw [Nat.mul_comm] at this
    omega
  unfold Os.byte
  rw [h1, h2, h _ (Nat.le_add_right _ _) (Nat.add_lt_add_left h3 b)]
  dsimp only
  rw [Nat.add_sub_cancel_left, Nat.mul_comm, Nat.div_add_mod, List.getD_eq_getElem?_getD, List.getElem?_eq_getElem hk]
  rfl

/-! ### What is left -/

/-- Object `i` holds no page but those it shows. -/
def PagesOf (E : Env) (w : World) (i : Nat) : Prop :=
  ∀ p g, w.os.pages p = some g → g.owner = some i → ∃ m b, w.objs i = some m ∧ m.data = some b ∧
    b ≤ p ∧ p < b + E.pagesOf m.size

theorem close_pages {w : World} {i : Nat} {m : MemFile} (hm : w.objs i = some m) (hq : PagesOf E w i) :
    ∀ p g, (close E w.os m).1.pages p = some g → g.owner ≠ some i := by
  intro p g hg ho
  have key : ∀ os : Os, (if m.fh ≠ 0 then os.close m.fh else os).pages = os.pages := by
    intro os; split
    · unfold Os.close; split <;> rfl
    · rfl
  unfold close at hg
  cases hd : m.data with
  | none =>
    rw [hd] at hg
    dsimp only at hg
    rw [key] at hg
    obtain ⟨m', b, h1, h2, _⟩ := hq p g hg ho
    rw [hm] at h1; simp at h1; subst h1; rw [hd] at h2; simp at h2
  | some b =>
    rw [hd] at hg
    dsimp only at hg
    rw [key] at hg
    simp only [Os.munmap] at hg
    split at hg
    · simp at hg
    · rename_i hn
      obtain ⟨m', b', h1, h2, h3⟩ := hq p g hg ho
      rw [hm] at h1; simp at h1; subst h1; rw [hd] at h2; simp at h2; subst h2
      exact hn h3

theorem reopen_pages {w : World} {i : Nat} {m : MemFile} (hm : w.objs i = some m) (hq : PagesOf E w i) :
    ∀ p g, (reopen E w.os m).1.pages p = some g → g.owner ≠ some i := by
  intro p g hg ho
  unfold reopen at hg
  split at hg
  · exact close_pages hm hq p g hg ho
  · rename_i hd
    obtain ⟨m', b, h1, h2, _⟩ := hq p g hg ho
    rw [hm] at h1; simp at h1; subst h1; exact hd (by simp [h2])

theorem step_pages {w w' : World} {op : Op} {i : Nat} (hp : 0 < E.pageSize) (hc : E.charSize = 1) (hw : Ok E w)
    (h : Step E w op w') (hq : PagesOf E w i) : PagesOf E w' i := by
  cases hu : op.uses i with
  | false =>
    rcases uses_or op with ⟨k, hk⟩ | hn
    · obtain ⟨h1, h2, _⟩ := step_apart hp hw h hk
      have hik : i ≠ k := by intro he; subst he; rw [hk] at hu; simp at hu
      intro p g hg ho
      rw [h2 i hik]
      exact hq p g ((h1.pages p g (by rw [ho]; simpa using hik)).mpr hg) ho
    · obtain ⟨h1, h2⟩ := step_kept h hn
      intro p g hg ho
      rw [h2]
      exact hq p g ((h1.pages p g i ho).mpr hg) ho
  | true =>
    intro p g hg ho
    cases h with
    | new h =>
      simp [Op.uses] at hu; subst hu
      obtain ⟨m, b, h1, _⟩ := hq p g hg ho
      rw [h] at h1; simp at h1
    | «open» h hl =>
      rename_i j f a m0
      simp [Op.uses] at hu; subst hu
      have h3 := reopen_pages h hq p g
      cases a with
      | noFile => exact absurd ho (h3 hg)
      | noStat fd => exact absurd ho (h3 hg)
      | noMap fd => exact absurd ho (h3 hg)
      | mapped fd b =>
        simp only [openFile, Os.mmap] at hg
        split at hg
        · rename_i hr
          refine ⟨(openFile E j f (.mapped fd b) w.os m0).2, b, by simp [World.set], rfl, hr.1, ?_⟩
          simp only [openFile, hc, Nat.div_one]
          exact hr.2
        · exact absurd ho (h3 hg)
    | close h =>
      simp [Op.uses] at hu; subst hu
      exact absurd ho (close_pages h hq p g hg)
    | destroy h =>
      simp [Op.uses] at hu; subst hu
      exact absurd ho (close_pages h hq p g hg)
    | otherOpen h => simp [Op.uses] at hu
    | otherClose h => simp [Op.uses] at hu
    | otherMap h => simp [Op.uses] at hu
    | otherUnmap h h2 => simp [Op.uses] at hu

theorem run_pages {w w' : World} {ops : List Op} {i : Nat} (hp : 0 < E.pageSize) (hc : E.charSize = 1) (hw : Ok E w)
    (h : Run E w ops w') (hq : PagesOf E w i) : PagesOf E w' i := by
  induction h with
  | nil => exact hq
  | cons h _ ih => exact ih (step_ok hp hw h) (step_pages hp hc hw h hq)

/-- Object `i` holds no descriptor but `_fh`; `held`: it may hold one without a file. -/
def FdsOf (w : World) (i : Nat) (held : Bool) : Prop :=
  (∀ fd, w.os.fds fd = some (some i) → ∃ m, w.objs i = some m ∧ 0 < m.fh ∧ m.fh = fd) ∧
    (held = false → ∀ m, w.objs i = some m → m.data = none → ∀ fd, w.os.fds fd ≠ some (some i))

theorem close_fds {w : World} {i : Nat} {m : MemFile} {held : Bool} (hm : w.objs i = some m) (hq : FdsOf w i held) :
    ∀ fd, (close E w.os m).1.fds fd ≠ some (some i) := by
  intro fd hfd
  have key : ∀ os : Os, os.fds = w.os.fds → (if m.fh ≠ 0 then os.close m.fh else os).fds fd = some (some i) → False := by
    intro os he hh
    split at hh
    · unfold Os.close at hh
      split at hh
      · dsimp only at hh
        split at hh
        · simp at hh
        · rename_i hn
          rw [he] at hh
          obtain ⟨m', h1, _, h3⟩ := hq.1 fd hh
          rw [hm] at h1; simp at h1; subst h1
          apply hn; omega
      · rw [he] at hh
        obtain ⟨m', h1, h2, h3⟩ := hq.1 fd hh
        rw [hm] at h1; simp at h1; subst h1
        omega
    · rw [he] at hh
      obtain ⟨m', h1, h2, h3⟩ := hq.1 fd hh
      rw [hm] at h1; simp at h1; subst h1
      omega
  unfold close at hfd
  cases hd : m.data with
  | none => rw [hd] at hfd; exact key _ rfl hfd
  | some b => rw [hd] at hfd; exact key (w.os.munmap E b m.size) rfl hfd

theorem reopen_fds {w : World} {i : Nat} {m : MemFile} (hm : w.objs i = some m) (hq : FdsOf w i false) :
    ∀ fd, (reopen E w.os m).1.fds fd ≠ some (some i) := by
  intro fd
  unfold reopen
  split
  · exact close_fds hm hq fd
  · rename_i hd
    exact hq.2 rfl m hm (by simpa using hd) fd

/-- `held` after one operation of `i`. -/
theorem step_fds {w w' : World} {op : Op} {ops : List Op} {i : Nat} {held : Bool} (hp : 0 < E.pageSize) (hw : Ok E w)
    (h : Step E w op w') (hc : Careful i (op :: ops) held) (hq : FdsOf w i held) :
    ∃ held', FdsOf w' i held' ∧ Careful i ops held' := by
  cases hu : op.uses i with
  | false =>
    refine ⟨held, ?_, ?_⟩
    · rcases uses_or op with ⟨k, hk⟩ | hn
      · obtain ⟨h1, h2, _⟩ := step_apart hp hw h hk
        have hik : i ≠ k := by intro he; subst he; rw [hk] at hu; simp at hu
        have h4 : ∀ fd, w.os.fds fd = some (some i) ↔ w'.os.fds fd = some (some i) :=
          fun fd => h1.fds fd _ (by simpa using hik)
        refine ⟨fun fd hfd => ?_, fun hh m hm hd fd hfd => ?_⟩
        · rw [h2 i hik]; exact hq.1 fd ((h4 fd).mpr hfd)
        · rw [h2 i hik] at hm; exact hq.2 hh m hm hd fd ((h4 fd).mpr hfd)
      · obtain ⟨h1, h2⟩ := step_kept h hn
        refine ⟨fun fd hfd => ?_, fun hh m hm hd fd hfd => ?_⟩
        · rw [h2]; exact hq.1 fd ((h1.fds fd i).mpr hfd)
        · rw [h2] at hm; exact hq.2 hh m hm hd fd ((h1.fds fd i).mpr hfd)
    · cases op <;> simp_all [Op.uses, Careful]
  | true =>
    have none_ : ∀ (os : Os) (o : Option MemFile), (∀ fd, os.fds fd ≠ some (some i)) →
        FdsOf ⟨os, w.set i o⟩ i false := fun os o hn => ⟨fun fd hfd => absurd hfd (hn fd), fun _ _ _ _ => hn⟩
    cases h with
    | new h =>
      simp [Op.uses] at hu; subst hu
      refine ⟨false, none_ _ _ fun fd hfd => ?_, by simpa [Careful] using hc⟩
      obtain ⟨m, h1, _⟩ := hq.1 fd hfd
      rw [h] at h1; simp at h1
    | «open» h hl =>
      rename_i j f a m0
      simp [Op.uses] at hu; subst hu
      simp only [Careful, if_pos] at hc
      obtain ⟨hh, hc⟩ := hc
      subst hh
      have h3 := reopen_fds (E := E) h hq
      have one : ∀ (fd : Nat) (m : MemFile), fd ≠ 0 → m.fh = fd → ∀ os : Os,
          os.fds = ((reopen E w.os m0).1.opened (some j) fd).fds → ∀ n, os.fds n = some (some j) →
          ∃ m', (w.set j (some m)) j = some m' ∧ 0 < m'.fh ∧ m'.fh = n := by
        intro fd m h0 hm os he n hn
        rw [he] at hn
        simp only [Os.opened] at hn
        split at hn
        · rename_i hnf; subst hnf
          exact ⟨m, by simp [World.set], by omega, hm⟩
        · exact absurd hn (h3 n)
      cases a with
      | noFile => exact ⟨false, none_ _ _ h3, hc⟩
      | noStat fd => exact ⟨true, ⟨one fd _ hc.1 rfl _ rfl, fun hh => by simp at hh⟩, hc.2⟩
      | noMap fd => exact ⟨true, ⟨one fd _ hc.1 rfl _ rfl, fun hh => by simp at hh⟩, hc.2⟩
      | mapped fd b =>
        refine ⟨false, ⟨one fd _ hc.1 rfl _ rfl, fun _ m hm hd => ?_⟩, hc.2⟩
        simp [World.set, openFile] at hm
        subst hm; simp at hd
    | close h =>
      simp [Op.uses] at hu; subst hu
      exact ⟨false, none_ _ _ (close_fds h hq), by simpa [Careful] using hc⟩
    | destroy h =>
      simp [Op.uses] at hu; subst hu
      exact ⟨false, none_ _ _ (close_fds h hq), by simpa [Careful] using hc⟩
    | otherOpen h => simp [Op.uses] at hu
    | otherClose h => simp [Op.uses] at hu
    | otherMap h => simp [Op.uses] at hu
    | otherUnmap h h2 => simp [Op.uses] at hu

theorem run_fds {w w' : World} {ops : List Op} {i : Nat} {held : Bool} (hp : 0 < E.pageSize) (hw : Ok E w)
    (h : Run E w ops w') (hc : Careful i ops held) (hq : FdsOf w i held) : ∃ held', FdsOf w' i held' := by
  induction h generalizing held with
  | nil => exact ⟨held, hq⟩
  | cons h _ ih =>
    obtain ⟨held', h1, h2⟩ := step_fds hp hw h hc hq
    exact ih (step_ok hp hw h) h2 h1

/-- A descriptor of object `i` that the object no longer knows. -/
def Lost (w : World) (i fd : Nat) : Prop :=
  w.os.fds fd = some (some i) ∧ ∀ m, w.objs i = some m → m.fh ≠ fd ∨ m.fh = 0

theorem close_keeps {os : Os} {m : MemFile} {i fd : Nat} (h : os.fds fd = some (some i)) (hm : m.fh ≠ fd ∨ m.fh = 0) :
    (close E os m).1.fds fd = some (some i) := by
  have key : ∀ os' : Os, os'.fds = os.fds → (if m.fh ≠ 0 then os'.close m.fh else os').fds fd = some (some i) := by
    intro os' he
    split
    · unfold Os.close
      split
      · dsimp only
        rw [if_neg (by omega), he, h]
      · rw [he, h]
    · rw [he, h]
  unfold close
  cases hd : m.data with
  | none => exact key _ rfl
  | some b => exact key _ rfl

theorem reopen_keeps {os : Os} {m : MemFile} {i fd : Nat} (h : os.fds fd = some (some i)) (hm : m.fh ≠ fd ∨ m.fh = 0) :
    (reopen E os m).1.fds fd = some (some i) := by
  unfold reopen
  split
  · exact close_keeps h hm
  · exact h

theorem step_lost {w w' : World} {op : Op} {i fd : Nat} (hp : 0 < E.pageSize) (hw : Ok E w)
    (h : Step E w op w') (hq : Lost w i fd) : Lost w' i fd := by
  cases hu : op.uses i with
  | false =>
    rcases uses_or op with ⟨k, hk⟩ | hn
    · obtain ⟨h1, h2, _⟩ := step_apart hp hw h hk
      have hik : i ≠ k := by intro he; subst he; rw [hk] at hu; simp at hu
      exact ⟨(h1.fds fd _ (by simpa using hik)).mp hq.1, by rw [h2 i hik]; exact hq.2⟩
    · obtain ⟨h1, h2⟩ := step_kept h hn
      exact ⟨(h1.fds fd i).mp hq.1, by rw [h2]; exact hq.2⟩
  | true =>
    cases h with
    | new h =>
      simp [Op.uses] at hu; subst hu
      refine ⟨hq.1, fun m hm => ?_⟩
      simp [World.set] at hm; subst hm; right; rfl
    | «open» h hl =>
      rename_i j f a m0
      simp [Op.uses] at hu; subst hu
      have h3 := reopen_keeps (E := E) hq.1 (hq.2 _ h)
      have ne : ∀ n : Nat, (reopen E w.os m0).1.fds n = none → fd ≠ n := by
        intro n hn he; subst he; rw [h3] at hn; simp at hn
      cases a with
      | noFile =>
        refine ⟨h3, fun m hm => ?_⟩
        simp [World.set, openFile] at hm; subst hm; left; dsimp only; omega
      | noStat n =>
        refine ⟨?_, fun m hm => ?_⟩
        · simp only [openFile, Os.opened]; rw [if_neg (ne n hl)]; exact h3
        · simp [World.set, openFile] at hm; subst hm; left; have := ne n hl; dsimp only; omega
      | noMap n =>
        refine ⟨?_, fun m hm => ?_⟩
        · simp only [openFile, Os.opened]; rw [if_neg (ne n hl)]; exact h3
        · simp [World.set, openFile] at hm; subst hm; left; have := ne n hl; dsimp only; omega
      | mapped n b =>
        refine ⟨?_, fun m hm => ?_⟩
        · simp only [openFile, Os.opened, Os.mmap]; rw [if_neg (ne n hl.1)]; exact h3
        · simp [World.set, openFile] at hm; subst hm; left; have := ne n hl.1; dsimp only; omega
    | close h =>
      simp [Op.uses] at hu; subst hu
      refine ⟨close_keeps hq.1 (hq.2 _ h), fun m hm => ?_⟩
      simp [World.set] at hm; subst hm; right; exact close_fh _ _
    | destroy h =>
      simp [Op.uses] at hu; subst hu
      refine ⟨close_keeps hq.1 (hq.2 _ h), fun m hm => ?_⟩
      simp [World.set] at hm
    | otherOpen h => simp [Op.uses] at hu
    | otherClose h => simp [Op.uses] at hu
    | otherMap h => simp [Op.uses] at hu
    | otherUnmap h h2 => simp [Op.uses] at hu

theorem run_lost {w w' : World} {ops : List Op} {i fd : Nat} (hp : 0 < E.pageSize) (hw : Ok E w)
    (h : Run E w ops w') (hq : Lost w i fd) : Lost w' i fd := by
  induction h with
  | nil => exact hq
  | cons h _ ih => exact ih (step_ok hp hw h) (step_lost hp hw h hq)

end Lexertl.MemFile
