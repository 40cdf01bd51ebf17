import Verif.Proofs.StreamStep

/-
C38: iterators over a stream.
-/
namespace Lexertl.Props
open Lexertl Stream

/-- C38.  Make an iterator from a stream that is not empty, with any buffer size and any
increment but 0.  Whatever is then done with it and its copies, as long as each operation is a
proper use (`Ideal.step`: iterators are positions in the text of the stream), every operation
gives back what the positions say: each character read is the one at the position, and an
iterator equals the end exactly when it is after the last character.  No destroyed iterator and
no deleted buffer is touched.  Missing: the empty stream (`C38_empty_stream`), increment 0
(`C38_no_increment`), assigning to or from the iterator made from the stream
(`C38_assign_from_stream_iterator`, `C38_assign_to_stream_iterator`), and `memcpy` of
overlapping ranges is taken to copy (`C38_overlapping_memcpy`). -/
theorem C38_follows_text_partial (text : List Nat) (size increment : Nat) (w : World) (ht : text ≠ [])
    (hn : text.length < Stream.npos) (hi : 0 < increment) (hw : World.start text size increment = .ok w)
    (ops : List Op) (s : Ideal) (outs : List Output) (h : Ideal.start.run text ops = some (s, outs)) :
    ∃ w', w.run false ops = .ok (w', outs) := by
  obtain ⟨w', h1, _⟩ := (start_good ht hn hi hw).run h
  exact ⟨w', h1⟩

/-- C38.  The same with `memcpy` of overlapping ranges counted: either that happens, or the
operations give back what the positions say. -/
theorem C38_memcpy (text : List Nat) (size increment : Nat) (w : World) (ht : text ≠ [])
    (hn : text.length < Stream.npos) (hi : 0 < increment) (hw : World.start text size increment = .ok w)
    (ops : List Op) (s : Ideal) (outs : List Output) (h : Ideal.start.run text ops = some (s, outs)) :
    (∃ w', w.run true ops = .ok (w', outs)) ∨ ∃ what, w.run true ops = .error (.ub what) := by
  obtain ⟨w', h1⟩ := C38_follows_text_partial text size increment w ht hn hi hw ops s outs h
  rcases run_strict ops w with h2 | h2
  · left; exact ⟨w', by rw [h2, h1]⟩
  · right; exact h2

/-- C38.  The loop `for (it = copy; it != end; ++it) use(*it)` uses exactly the characters of
the stream, in order, and then stops. -/
theorem C38_reads_all (text : List Nat) (size increment : Nat) (w : World) (ht : text ≠ [])
    (hn : text.length < Stream.npos) (hi : 0 < increment) (hw : World.start text size increment = .ok w) :
    ∃ w', w.run false (.copy 0 :: .default :: readOps text) = .ok (w', .iter 1 :: .iter 2 :: readOuts text) := by
  obtain ⟨s', hs⟩ := reads_from text text 0 (Nat.zero_le _) rfl
  refine C38_follows_text_partial text size increment w ht hn hi hw _ s' _ ?_
  rw [if_pos (List.length_pos_iff.mpr ht)] at hs
  simp [Ideal.run, Ideal.step, Ideal.start, Ideal.begin, hs]

/-- The text `abcdef` through a buffer of 2 characters, with a copy kept at an older position;
the copy then reads on from there. -/
example : (World.start [97, 98, 99, 100, 101, 102] 2 3).isOk ∧
    (Ideal.start.run [97, 98, 99, 100, 101, 102]
      [.copy 0, .inc 1, .copy 1, .inc 1, .inc 1, .inc 1, .deref 1, .deref 2, .inc 2, .deref 2, .destroy 2, .inc 1, .inc 1,
        .default, .eq 1 3]).map (·.2) =
    some [.iter 1, .nothing, .iter 2, .nothing, .nothing, .nothing, .char 101, .char 98, .nothing, .char 99, .nothing,
      .nothing, .nothing, .iter 3, .bool true] := by decide +kernel

/-- C38.  A copy of an iterator over an empty stream does not equal the end, and reads a
character. -/
theorem C38_empty_stream (size increment : Nat) (hs : size ≠ 0) (w : World)
    (h : World.start [] size increment = .ok w) :
    ∃ w', w.run false [.copy 0, .default, .eq 1 2, .deref 1] = .ok (w', [.iter 1, .iter 2, .bool false, .char 0]) := by
  simp only [World.start, if_neg hs, Except.ok.injEq] at h
  subst h
  obtain ⟨k, rfl⟩ : ∃ k, size = k + 1 := ⟨size - 1, by omega⟩
  simp only [List.take_nil, List.drop_nil, List.length_nil, Nat.sub_zero, List.nil_append, List.replicate_succ]
  exact ⟨_, rfl⟩

/-- C38.  The iterator made from a stream equals the end until it is used, whatever the
stream holds. -/
theorem C38_stream_iterator_equals_end (text : List Nat) (size increment : Nat) (w : World)
    (h : World.start text size increment = .ok w) :
    ∃ w', w.run false [.default, .eq 0 1] = .ok (w', [.iter 1, .bool true]) := by
  unfold World.start at h
  split at h
  · simp at h
  · simp only [Except.ok.injEq] at h
    subst h
    exact ⟨_, rfl⟩

/-- The results of a sequence of operations on an iterator made from a stream. -/
def streamRun (strict : Bool) (text : List Nat) (size increment : Nat) (ops : List Op) : M (List Output) := do
  let w ← World.start text size increment
  let r ← w.run strict ops
  .ok r.2

/-- C38.  With increment 0 and a copy at the first character, the end comes when the buffer has
been read. -/
theorem C38_no_increment : streamRun false [97, 98, 99] 2 0 [.copy 0, .copy 1, .inc 2, .inc 2, .default, .eq 2 3] =
    .ok [.iter 1, .iter 2, .nothing, .nothing, .iter 3, .bool true] := rfl

/-- C38.  An iterator assigned from the one made from the stream is not told when the buffer
moves: here it should be at `a` and reads `c`. -/
theorem C38_assign_from_stream_iterator :
    streamRun false [97, 98, 99, 100] 2 2 [.default, .assign 1 0, .deref 1, .inc 0, .inc 0, .deref 1] =
    .ok [.iter 1, .nothing, .char 97, .nothing, .nothing, .char 99] := rfl

/-- C38.  Assigning to the iterator made from the stream makes it move twice when the buffer
moves: here it should be at `b` and equals the end. -/
theorem C38_assign_to_stream_iterator :
    streamRun false [97, 98, 99, 100] 2 2 [.copy 0, .inc 1, .assign 0 1, .deref 0, .inc 1, .default, .eq 0 2] =
    .ok [.iter 1, .nothing, .nothing, .char 98, .nothing, .iter 2, .bool true] := rfl

/-- C38.  Assigning the end to the iterator made from the stream and destroying it leaves a
pointer to it behind, which the next reload follows. -/
theorem C38_dangling_client : ∃ what,
    streamRun false [97, 98, 99, 100] 2 2 [.copy 0, .default, .assign 0 2, .destroy 0, .inc 1, .inc 1] =
    .error (.ub what) := ⟨_, rfl⟩

/-- C38.  Reading with a copy kept near the beginning of the buffer copies between overlapping
ranges with `memcpy`. -/
theorem C38_overlapping_memcpy : ∃ what,
    streamRun true [97, 98, 99, 100, 101] 4 4 [.copy 0, .inc 1, .copy 1, .inc 1, .inc 1, .inc 1] =
    .error (.ub what) := ⟨_, rfl⟩

/-- C38.  Assigning the end to an iterator that has reached it forgets a reference: the buffer
is not deleted when all iterators are gone. -/
theorem C38_leak : ((World.start [97] 2 2).toOption.bind fun w =>
    ((w.run false [.copy 0, .inc 1, .default, .assign 1 2, .destroy 0, .destroy 1, .destroy 2]).toOption).map fun r =>
      (r.1.its, r.1.shared.isSome)) = some ([none, none, none], true) := by decide +kernel

end Lexertl.Props
