import Verif.Proofs.UtfIter
import Verif.Proofs.UtfExact

/-
C23, C24, C25, C26, C47, C48: the UTF-8 and UTF-16 iterators and the byte order iterator.
-/
namespace Lexertl.Props
open Lexertl Spec Utf

namespace Ex
/-- `a`, `é`, `€`, a smiley and the last code point. -/
def points : List Nat := [0x61, 0xe9, 0x20ac, 0x1f600, 0x10ffff]
theorem points_scalar : ∀ c ∈ points, Scalar c := by simp [points, Scalar]
end Ex

/-! ## C23: UTF-8 -/

/-- Encoding: the units the UTF-8 output iterator gives for any code points are the UTF-8
form of these code points, in order. (`n` only bounds the number of rounds of the loop; one
more than the number of bytes is enough, so the loop ends.) -/
theorem C23_encode (cps : List Nat) (h : ∀ c ∈ cps, c ≤ 0x10ffff) (n : Nat) (hn : (cps.flatMap utf8).length < n) :
    UtfOut.all (pointers cps) utf8Bytes n 0 = .ok (cps.flatMap utf8) := by
  have e : cps.flatMap utf8Bytes = cps.flatMap utf8 := by
    simp only [List.flatMap_def]
    congr 1
    exact List.map_congr_left fun c hc => utf8Bytes_eq (by have := h c hc; omega)
  rw [← e] at hn ⊢
  exact out_all (by intro c; unfold utf8Bytes; (repeat' split) <;> simp) (pointers_yield cps []) hn

example : UtfOut.all (pointers Ex.points) utf8Bytes 15 0 =
    .ok [0x61, 0xc3, 0xa9, 0xe2, 0x82, 0xac, 0xf0, 0x9f, 0x98, 0x80, 0xf4, 0x8f, 0xbf, 0xbf] :=
  C23_encode Ex.points (by simp [Ex.points]) 15 (by decide)

/-- Decoding: over the UTF-8 form of any code points the UTF-8 input iterator gives exactly
these code points, in order, and throws nothing. -/
theorem C23_decode (cps : List Nat) (h : ∀ c ∈ cps, c ≤ 0x10ffff) :
    UtfIn.all (cps.flatMap utf8) (utf8Next (cps.flatMap utf8)) = .ok cps :=
  utf8_decodes.all cps fun c hc => by have := h c hc; show c < 0x200000; omega

example : UtfIn.all [0x61, 0xc3, 0xa9, 0xe2, 0x82, 0xac, 0xf0, 0x9f, 0x98, 0x80, 0xf4, 0x8f, 0xbf, 0xbf]
    (utf8Next [0x61, 0xc3, 0xa9, 0xe2, 0x82, 0xac, 0xf0, 0x9f, 0x98, 0x80, 0xf4, 0x8f, 0xbf, 0xbf]) = .ok Ex.points :=
  C23_decode Ex.points (by simp [Ex.points])

/-- The round trip: what one iterator writes, the other reads back. -/
theorem C23_round_trip (cps : List Nat) (h : ∀ c ∈ cps, c ≤ 0x10ffff) :
    ∃ bytes, UtfOut.all (pointers cps) utf8Bytes ((cps.flatMap utf8).length + 1) 0 = .ok bytes ∧ (∀ b ∈ bytes, b < 256) ∧
      UtfIn.all bytes (utf8Next bytes) = .ok cps := by
  refine ⟨_, C23_encode cps h _ (by omega), ?_, C23_decode cps h⟩
  intro b hb
  obtain ⟨c, hc, hb⟩ := List.mem_flatMap.1 hb
  have := h c hc
  rcases utf8_cases c with ⟨h1, e⟩ | ⟨h1, h2, e⟩ | ⟨h1, h2, e⟩ | ⟨h1, e⟩ <;> rw [e] at hb <;> simp at hb <;> omega

/-- Moving: `it + n` goes `n` code points on, and `it - n` from there comes back to the same
place and the same code point, at every position of a well formed text. -/
theorem C48_utf8_back (cps : List Nat) (h : ∀ c ∈ cps, c ≤ 0x10ffff) (i n : Nat) (hin : i + n ≤ cps.length) :
    ∃ s t s', UtfIn.plus (utf8Next (cps.flatMap utf8)) i (UtfIn.new (utf8Next (cps.flatMap utf8)) 0).1 = .ok s ∧
      UtfIn.plus (utf8Next (cps.flatMap utf8)) n s = .ok t ∧ utf8Minus (cps.flatMap utf8) n t = .ok s' ∧
      s.it = ((cps.take i).flatMap utf8).length ∧ t.it = ((cps.take (i + n)).flatMap utf8).length ∧ s'.it = s.it ∧ s'.end = s.end ∧
      (∀ c, cps[i]? = some c → s.char = c ∧ s'.char = c) ∧ ∀ c, cps[i + n]? = some c → t.char = c := by
  have h' : ∀ c ∈ cps, c < 0x200000 := fun c hc => by have := h c hc; omega
  obtain ⟨_, h0⟩ := utf8_decodes.next_at h' (k := 0) (by omega) (s := ⟨0, 0, 0⟩) (by simp) (fun _ => rfl)
  obtain ⟨s, e1, hs⟩ := utf8_decodes.plus_at h' i 0 _ (by omega) h0
  rw [Nat.zero_add] at hs
  obtain ⟨t, e2, ht⟩ := utf8_decodes.plus_at h' n i s hin hs
  obtain ⟨s', e3, hs'⟩ := utf8_minus_at h' hin ht
  refine ⟨s, t, s', e1, e2, e3, hs.1, ht.1, by rw [hs.1, hs'.1], ?_, ?_, ?_⟩
  · have a := hs.2; have b := hs'.2
    cases hc : cps[i]? with
    | none => rw [hc] at a b; simp only at a b; rw [a, b, hs.1, hs'.1]
    | some c => rw [hc] at a b; simp only at a b; rw [a.1, b.1, hs.1, hs'.1]
  · intro c hc
    have a := hs.2; have b := hs'.2
    rw [hc] at a b
    exact ⟨a.2, b.2⟩
  · intro c hc
    have a := ht.2
    rw [hc] at a
    exact a.2

example := C48_utf8_back Ex.points (by simp [Ex.points]) 2 2 (by decide)

/-- What the UTF-8 decoder does with any bytes: it gives the code points `out` exactly if the
bytes are a sequence of forms `LaxUtf8` of these; otherwise it throws (`C25_utf8_ends`). -/
theorem C23_decode_exact (inp : List Nat) (hb : ∀ b ∈ inp, b < 256) (out : List Nat) :
    UtfIn.all inp (utf8Next inp) = .ok out ↔
      ∃ xs : List (Nat × List Nat), (∀ x ∈ xs, LaxUtf8 x.1 x.2) ∧ xs.map (·.1) = out ∧ xs.flatMap (·.2) = inp :=
  utf8_exact.all inp hb out

example : ∃ xs : List (Nat × List Nat), (∀ x ∈ xs, LaxUtf8 x.1 x.2) ∧ xs.map (·.1) = [0x20ac, 0, 0x41] ∧
    xs.flatMap (·.2) = [0xe2, 0x82, 0xac, 0xc0, 0x80, 0x41] :=
  (C23_decode_exact [0xe2, 0x82, 0xac, 0xc0, 0x80, 0x41] (by decide) _).1 rfl

/-- The decoder is laxer than the standard: overlong forms are taken, so two byte sequences
can give the same code point, and writing back what was read need not give the same bytes. -/
theorem C23_overlong : UtfIn.all [0xc0, 0x80] (utf8Next [0xc0, 0x80]) = .ok [0] ∧ UtfIn.all [0] (utf8Next [0]) = .ok [0] ∧
    UtfOut.all (pointers [0]) utf8Bytes 3 0 = .ok [0] := ⟨rfl, rfl, rfl⟩

/-- Surrogates and numbers above 10FFFF, which no UTF-8 text may contain, are taken too. -/
theorem C23_surrogates : UtfIn.all [0xed, 0xa0, 0x80] (utf8Next [0xed, 0xa0, 0x80]) = .ok [0xd800] ∧
    UtfIn.all [0xf7, 0xbf, 0xbf, 0xbf] (utf8Next [0xf7, 0xbf, 0xbf, 0xbf]) = .ok [0x1fffff] := ⟨rfl, rfl⟩

/-! ## C24: UTF-16 -/

/-- Encoding: the units the UTF-16 output iterator gives are the UTF-16 form. -/
theorem C24_encode (cps : List Nat) (h : ∀ c ∈ cps, c ≤ 0x10ffff) (n : Nat) (hn : (cps.flatMap utf16).length < n) :
    UtfOut.all (pointers cps) utf16Units n 0 = .ok (cps.flatMap utf16) := by
  have e : cps.flatMap utf16Units = cps.flatMap utf16 := by
    simp only [List.flatMap_def]
    congr 1
    exact List.map_congr_left fun c hc => utf16Units_eq (h c hc)
  rw [← e] at hn ⊢
  exact out_all (by intro c; unfold utf16Units; (repeat' split) <;> simp) (pointers_yield cps []) hn

example : UtfOut.all (pointers Ex.points) utf16Units 8 0 = .ok [0x61, 0xe9, 0x20ac, 0xd83d, 0xde00, 0xdbff, 0xdfff] :=
  C24_encode Ex.points (by simp [Ex.points]) 8 (by decide)

/-- Decoding: over the UTF-16 form of any Unicode scalar values the UTF-16 input iterator
gives exactly these, in order, and throws nothing. -/
theorem C24_decode (cps : List Nat) (h : ∀ c ∈ cps, Scalar c) :
    UtfIn.all (cps.flatMap utf16) (utf16Next (cps.flatMap utf16)) = .ok cps :=
  utf16_decodes.all cps h

/-- What the UTF-16 decoder does with any units: it gives the code points `out` exactly if
these are scalar values and the units are their UTF-16 form; otherwise it throws
(`C25_utf16_ends`).  So unpaired surrogates are always reported. -/
theorem C24_decode_exact (inp : List Nat) (hb : ∀ u ∈ inp, u < 65536) (out : List Nat) :
    UtfIn.all inp (utf16Next inp) = .ok out ↔ (∀ c ∈ out, Scalar c) ∧ out.flatMap utf16 = inp := by
  rw [utf16_exact.all inp hb out]
  constructor
  · rintro ⟨xs, h1, rfl, rfl⟩
    refine ⟨?_, ?_⟩
    · intro c hc
      obtain ⟨x, hx, rfl⟩ := List.mem_map.1 hc
      exact (h1 x hx).1
    · rw [List.flatMap_map]
      simp only [List.flatMap_def]
      congr 1
      exact List.map_congr_left fun x hx => (h1 x hx).2.symm
  · rintro ⟨h1, rfl⟩
    refine ⟨out.map fun c => (c, utf16 c), ?_, ?_, ?_⟩
    · intro x hx
      obtain ⟨c, hc, rfl⟩ := List.mem_map.1 hx
      exact ⟨h1 c hc, rfl⟩
    · rw [List.map_map]
      exact List.map_id' _
    · rw [List.flatMap_map]

/-- An unpaired low surrogate followed by another low surrogate is not taken. -/
example (out : List Nat) : UtfIn.all [0xdc00, 0xdc00] (utf16Next [0xdc00, 0xdc00]) ≠ .ok out := by
  intro h
  obtain ⟨h1, h2⟩ := (C24_decode_exact _ (by decide) out).1 h
  cases out with
  | nil => simp at h2
  | cons c out =>
    have hc : c < 0xd800 ∨ (0xdfff < c ∧ c ≤ 0x10ffff) := h1 c (by simp)
    rw [List.flatMap_cons] at h2
    unfold utf16 at h2
    split at h2 <;> simp at h2 <;> omega

example : UtfIn.all [0x61, 0xe9, 0x20ac, 0xd83d, 0xde00, 0xdbff, 0xdfff]
    (utf16Next [0x61, 0xe9, 0x20ac, 0xd83d, 0xde00, 0xdbff, 0xdfff]) = .ok Ex.points :=
  C24_decode Ex.points Ex.points_scalar

/-- The round trip. -/
theorem C24_round_trip (cps : List Nat) (h : ∀ c ∈ cps, Scalar c) :
    ∃ units, UtfOut.all (pointers cps) utf16Units ((cps.flatMap utf16).length + 1) 0 = .ok units ∧ (∀ u ∈ units, u < 65536) ∧
      UtfIn.all units (utf16Next units) = .ok cps := by
  have h' : ∀ c ∈ cps, c ≤ 0x10ffff := fun c hc => by
    have : c < 0xd800 ∨ (0xdfff < c ∧ c ≤ 0x10ffff) := h c hc
    omega
  refine ⟨_, C24_encode cps h' _ (by omega), ?_, C24_decode cps h⟩
  intro b hb
  obtain ⟨c, hc, hb⟩ := List.mem_flatMap.1 hb
  have := h' c hc
  rcases utf16_cases c with ⟨h1, e⟩ | ⟨h1, e⟩ <;> rw [e] at hb <;> simp at hb <;> omega

/-- Moving on and back, as for UTF-8. -/
theorem C48_utf16_back (cps : List Nat) (h : ∀ c ∈ cps, Scalar c) (i n : Nat) (hin : i + n ≤ cps.length) :
    ∃ s t s', UtfIn.plus (utf16Next (cps.flatMap utf16)) i (UtfIn.new (utf16Next (cps.flatMap utf16)) 0).1 = .ok s ∧
      UtfIn.plus (utf16Next (cps.flatMap utf16)) n s = .ok t ∧ utf16Minus (cps.flatMap utf16) n t = .ok s' ∧
      s.it = ((cps.take i).flatMap utf16).length ∧ t.it = ((cps.take (i + n)).flatMap utf16).length ∧ s'.it = s.it ∧ s'.end = s.end ∧
      (∀ c, cps[i]? = some c → s.char = c ∧ s'.char = c) ∧ ∀ c, cps[i + n]? = some c → t.char = c := by
  obtain ⟨_, h0⟩ := utf16_decodes.next_at h (k := 0) (by omega) (s := ⟨0, 0, 0⟩) (by simp) (fun _ => rfl)
  obtain ⟨s, e1, hs⟩ := utf16_decodes.plus_at h i 0 _ (by omega) h0
  rw [Nat.zero_add] at hs
  obtain ⟨t, e2, ht⟩ := utf16_decodes.plus_at h n i s hin hs
  obtain ⟨s', e3, hs'⟩ := utf16_minus_at h hin ht
  refine ⟨s, t, s', e1, e2, e3, hs.1, ht.1, by rw [hs.1, hs'.1], ?_, ?_, ?_⟩
  · have a := hs.2; have b := hs'.2
    cases hc : cps[i]? with
    | none => rw [hc] at a b; simp only at a b; rw [a, b, hs.1, hs'.1]
    | some c => rw [hc] at a b; simp only at a b; rw [a.1, b.1, hs.1, hs'.1]
  · intro c hc
    have a := hs.2; have b := hs'.2
    rw [hc] at a b
    exact ⟨a.2, b.2⟩
  · intro c hc
    have a := ht.2
    rw [hc] at a
    exact a.2

example := C48_utf16_back Ex.points Ex.points_scalar 2 2 (by decide)

/-- A code point that is a surrogate is written but not read back. -/
theorem C24_surrogates : UtfOut.all (pointers [0xdc00]) utf16Units 3 0 = .ok [0xdc00] ∧
    ∃ m, UtfIn.all [0xdc00] (utf16Next [0xdc00]) = .error (.throw m) := ⟨rfl, _, rfl⟩

/-- Transcoding: an encoder reading from a decoder. UTF-16 text of any scalar values comes
out as their UTF-8 text. -/
theorem C47_utf16_to_utf8 (cps : List Nat) (h : ∀ c ∈ cps, Scalar c) (n : Nat) (hn : (cps.flatMap utf8).length < n) :
    UtfOut.all (decoder (cps.flatMap utf16) (utf16Next (cps.flatMap utf16))) utf8Bytes n
      (UtfIn.new (utf16Next (cps.flatMap utf16)) 0).1 = .ok (cps.flatMap utf8) := by
  have e : cps.flatMap utf8Bytes = cps.flatMap utf8 := by
    simp only [List.flatMap_def]
    congr 1
    refine List.map_congr_left fun c hc => utf8Bytes_eq ?_
    have : c < 0xd800 ∨ (0xdfff < c ∧ c ≤ 0x10ffff) := h c hc
    omega
  rw [← e] at hn ⊢
  exact out_all (by intro c; unfold utf8Bytes; (repeat' split) <;> simp) (utf16_decodes.start cps h).2 hn

/-- And the other way round. -/
theorem C47_utf8_to_utf16 (cps : List Nat) (h : ∀ c ∈ cps, c ≤ 0x10ffff) (n : Nat) (hn : (cps.flatMap utf16).length < n) :
    UtfOut.all (decoder (cps.flatMap utf8) (utf8Next (cps.flatMap utf8))) utf16Units n
      (UtfIn.new (utf8Next (cps.flatMap utf8)) 0).1 = .ok (cps.flatMap utf16) := by
  have e : cps.flatMap utf16Units = cps.flatMap utf16 := by
    simp only [List.flatMap_def]
    congr 1
    exact List.map_congr_left fun c hc => utf16Units_eq (h c hc)
  rw [← e] at hn ⊢
  exact out_all (by intro c; unfold utf16Units; (repeat' split) <;> simp)
    (utf8_decodes.start cps fun c hc => by have := h c hc; show c < 0x200000; omega).2 hn

example := C47_utf16_to_utf8 Ex.points Ex.points_scalar 20 (by decide)
example := C47_utf8_to_utf16 Ex.points (by simp [Ex.points]) 20 (by decide)

/-! ## C25: decoders never read outside the input -/

/-- Whatever the bytes are, and whatever calls of `++` were made before (also ones that
threw), the iterator lies inside the input and neither the constructor nor `++` reads outside
it: each call returns or throws. A call that returns moves on unless the end is reached. -/
theorem C25_utf8_safe (inp : List Nat) (s : UtfIn) (h : Reached (utf8Next inp) s) :
    s.it ≤ s.end ∧ s.end ≤ inp.length ∧ (∀ what, (UtfIn.new (utf8Next inp) 0).2 ≠ .error (.ub what)) ∧
      (∀ what, (s.inc (utf8Next inp)).2 ≠ .error (.ub what)) ∧ (s.inc (utf8Next inp)).1.it = s.end ∧
      ((s.inc (utf8Next inp)).2 = .ok () → s.end < inp.length → s.end < (s.inc (utf8Next inp)).1.end) := by
  obtain ⟨h1, h2⟩ := reached_inv (fun s a b => utf8_step a b) h
  have hs := utf8_step (inp := inp) (s := { s with it := s.end }) rfl h2
  exact ⟨h1, h2, (utf8_step (inp := inp) (s := ⟨0, 0, 0⟩) rfl (by simp)).safe, hs.safe, hs.it, hs.moves⟩

/-- The same for UTF-16. -/
theorem C25_utf16_safe (inp : List Nat) (s : UtfIn) (h : Reached (utf16Next inp) s) :
    s.it ≤ s.end ∧ s.end ≤ inp.length ∧ (∀ what, (UtfIn.new (utf16Next inp) 0).2 ≠ .error (.ub what)) ∧
      (∀ what, (s.inc (utf16Next inp)).2 ≠ .error (.ub what)) ∧ (s.inc (utf16Next inp)).1.it = s.end ∧
      ((s.inc (utf16Next inp)).2 = .ok () → s.end < inp.length → s.end < (s.inc (utf16Next inp)).1.end) := by
  obtain ⟨h1, h2⟩ := reached_inv (fun s a b => utf16_step a b) h
  have hs := utf16_step (inp := inp) (s := { s with it := s.end }) rfl h2
  exact ⟨h1, h2, (utf16_step (inp := inp) (s := ⟨0, 0, 0⟩) rfl (by simp)).safe, hs.safe, hs.it, hs.moves⟩

/-- A truncated text: the first code point is fine, then `++` throws and the iterator is
still inside. -/
example : Reached (utf8Next [0x61, 0xe2, 0x82]) ((UtfIn.new (utf8Next [0x61, 0xe2, 0x82]) 0).1.inc (utf8Next [0x61, 0xe2, 0x82])).1 :=
  .inc _ .new
example : ∃ m, ((UtfIn.new (utf8Next [0x61, 0xe2, 0x82]) 0).1.inc (utf8Next [0x61, 0xe2, 0x82])).2 = .error (.throw m) := ⟨_, rfl⟩

/-- Reading a whole input ends, for any bytes: with the code points, no more than there are
bytes, or with an exception. -/
theorem C25_utf8_ends (inp : List Nat) :
    (∃ out, UtfIn.all inp (utf8Next inp) = .ok out ∧ out.length ≤ inp.length) ∨ ∃ m, UtfIn.all inp (utf8Next inp) = .error (.throw m) := by
  have hs := utf8_step (inp := inp) (s := ⟨0, 0, 0⟩) rfl (by simp)
  exact all_ends (fun s a b => utf8_step a b) hs

theorem C25_utf16_ends (inp : List Nat) :
    (∃ out, UtfIn.all inp (utf16Next inp) = .ok out ∧ out.length ≤ inp.length) ∨ ∃ m, UtfIn.all inp (utf16Next inp) = .error (.throw m) := by
  have hs := utf16_step (inp := inp) (s := ⟨0, 0, 0⟩) rfl (by simp)
  exact all_ends (fun s a b => utf16_step a b) hs

/-- Moving back is not safe on malformed text: a text that begins with a continuation byte
lets `it - 1` read before the beginning. -/
theorem C48_minus_unsafe : (UtfIn.new (utf8Next [0x80, 0x61]) 1).2 = .ok () ∧
    ∃ what, utf8Minus [0x80, 0x61] 1 (UtfIn.new (utf8Next [0x80, 0x61]) 1).1 = .error (.ub what) := ⟨rfl, _, rfl⟩

/-! ## C26: byte order -/

/-- Reading a value of `w` bytes through the flip iterator gives the value with the same
bytes in the opposite order. -/
theorem C26_reverses (w : Nat) (hw : 0 < w) (v : Nat) :
    ∃ v', flip w v = .ok v' ∧ v' < 256 ^ w ∧ ∀ k, k < w → byteAt v' k = byteAt v (w - 1 - k) := flip_spec hw v

/-- Twice gives the value back. -/
theorem C26_involution (w : Nat) (hw : 0 < w) (v : Nat) (hv : v < 256 ^ w) : (do flip w (← flip w v)) = .ok v := by
  obtain ⟨a, e1, _, h1⟩ := flip_spec hw v
  obtain ⟨b, e2, h2, h3⟩ := flip_spec hw a
  rw [e1]
  simp only [bind, Except.bind]
  rw [e2]
  congr 1
  refine byteAt_ext w b v h2 hv fun k hk => ?_
  rw [h3 k hk, h1 _ (by omega)]
  congr 1
  omega

example : flip 2 0xfeff = .ok 0xfffe ∧ flip 4 0x12345678 = .ok 0x78563412 := ⟨rfl, rfl⟩
example := C26_involution 4 (by decide) 0x12345678 (by decide)

end Lexertl.Props
