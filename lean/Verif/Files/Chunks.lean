import Verif.Basic
import Mathlib.Data.List.Basic
import Mathlib.Tactic.Cases

/-!
# Reading files in chunks

Model of `ChunkReaderXmlInputCtx::read` (`src/ChunkReaderXmlInputCtx.cc:34-53`) on top of a file reader
(`src/FileChunkReader.cc:67-82`), and of the receiving side of `HttpChunkReader::read` (`src/HttpChunkReader.cc:43-68`, `109-133`), with C67.

What the server sends is a list of pieces; `curl` stops with an error as soon as the callback returns another number than the size of the piece.
A received buffer has `none` where nothing was written. Not modelled: a missing reader (`!cr_`, the call returns -1), errors of the
transfer itself (they raise), wrap-around of `off + count` in `size_t`.
-/

namespace Fimex.Files.Chunks

/-! ## Model -/

/-- src/FileChunkReader.cc:67-82 `FileChunkReader::read(off, count, buffer)`; `none`: an exception. -/
def fileRead (file : List UInt8) (off count : Nat) : Option (List UInt8) :=
  if off + count ≤ file.length then some ((file.drop off).take count) else none

/-- src/ChunkReaderXmlInputCtx.cc:34-53 `read(buffer, len)`: the new offset, the returned number, the bytes put into the buffer.
`fail` says whether the underlying reader raises at this call. -/
def ctxRead (file : List UInt8) (offset : Nat) (len : Int) (fail : Bool) : Nat × Int × List UInt8 :=
  if len < 0 then (offset, -1, [])
  else
    let len := if offset + len.toNat ≥ file.length then file.length - offset else len.toNat
    if len = 0 then (offset, 0, [])
    else
      match (if fail then none else fileRead file offset len) with
      | some b => (offset + len, len, b)
      | none => (offset, -1, [])

/-- A sequence of calls: the numbers returned and the bytes received. -/
def ctxReads (file : List UInt8) : Nat → List (Int × Bool) → Nat × List Int × List UInt8
  | offset, [] => (offset, [], [])
  | offset, (len, fail) :: cs =>
    let r := ctxRead file offset len fail
    let rest := ctxReads file r.1 cs
    (rest.1, r.2.1 :: rest.2.1, r.2.2 ++ rest.2.2)

/-- src/HttpChunkReader.cc:43-48 `WriteBuffer`. -/
structure WriteBuffer where
  buffer : List (Option UInt8)
  position : Nat
  capacity : Nat
deriving DecidableEq, Repr

/-- `std::copy` into memory at `pos`: undefined outside the buffer. -/
def copyTo (buf : List (Option UInt8)) (pos : Nat) (src : List UInt8) : Res (List (Option UInt8)) :=
  if pos + src.length ≤ buf.length then .ok (buf.take pos ++ src.map some ++ buf.drop (pos + src.length)) else .ub

/-- src/HttpChunkReader.cc:50-68 `WriteCallback`. -/
def writeCallback (contents : List UInt8) (wb : WriteBuffer) : Res (WriteBuffer × Nat) :=
  if wb.position + contents.length > wb.capacity then .ok (wb, 0)
  else do
    let b ← copyTo wb.buffer wb.position contents
    .ok ({ wb with buffer := b, position := wb.position + contents.length }, contents.length)

/-- `curl_easy_perform`: the callback for every piece; `none`: an error. -/
def perform : List (List UInt8) → WriteBuffer → Res (Option WriteBuffer)
  | [], wb => .ok (some wb)
  | c :: cs, wb => do
    let (wb, n) ← writeCallback c wb
    if n ≠ c.length then .ok none else perform cs wb

/-- src/HttpChunkReader.cc:109-133 `HttpChunkReader::read`. -/
def httpRead (size off count : Nat) (pieces : List (List UInt8)) : Res (List (Option UInt8)) :=
  if off + count > size then .throws
  else do
    let r ← perform pieces ⟨List.replicate count none, 0, count⟩
    match r with
    | none => .throws
    | some wb => .ok wb.buffer

/-! ## Theorems -/

theorem ctxRead_spec (file : List UInt8) (offset : Nat) (h : offset ≤ file.length) (len : Int) (fail : Bool) :
    let r := ctxRead file offset len fail
    r.1 ≤ file.length ∧ offset ≤ r.1 ∧ r.2.2 = (file.drop offset).take (r.1 - offset) ∧
    (0 ≤ len → fail = false → r.1 = min (offset + len.toNat) file.length ∧ r.2.1 = (r.1 - offset : Nat)) ∧
    ((len < 0 ∨ fail = true) → r.1 = offset ∧ (r.2.1 = -1 ∨ (r.2.1 = 0 ∧ (offset = file.length ∨ len = 0)))) := by
  unfold ctxRead
  by_cases hl : len < 0
  · rw [if_pos hl]
    dsimp only
    refine ⟨h, Nat.le_refl _, by simp, fun h' => by omega, fun _ => ⟨rfl, Or.inl rfl⟩⟩
  · rw [if_neg hl]
    dsimp only
    generalize hn : (if offset + len.toNat ≥ file.length then file.length - offset else len.toNat) = n
    have hn' : offset + n = min (offset + len.toNat) file.length := by
      rw [← hn]; split <;> omega
    by_cases h0 : n = 0
    · rw [if_pos h0]
      refine ⟨h, Nat.le_refl _, by simp, fun _ _ => ⟨by omega, by simp⟩, fun _ => ⟨rfl, Or.inr ⟨rfl, by omega⟩⟩⟩
    · rw [if_neg h0]
      cases fail with
      | true =>
        rw [if_pos rfl]
        exact ⟨h, Nat.le_refl _, by simp, (fun _ h' => by cases h'), fun _ => ⟨rfl, Or.inl rfl⟩⟩
      | false =>
        simp only [Bool.false_eq_true, if_false, fileRead]
        rw [if_pos (by omega)]
        dsimp only
        refine ⟨by omega, by omega, ?_, fun _ _ => ⟨by omega, by simp⟩, fun h' => ?_⟩
        · rw [Nat.add_sub_cancel_left]
        · rcases h' with h' | h'
          · omega
          · cases h'

/-- **C67.** Whatever the sequence of requests, and whichever of them fail: the bytes received so far are the first bytes of the file,
as many as the final offset says. -/
theorem C67_stream_is_prefix (file : List UInt8) (cs : List (Int × Bool)) :
    let r := ctxReads file 0 cs
    r.1 ≤ file.length ∧ r.2.2 = file.take r.1 := by
  have : ∀ (cs : List (Int × Bool)) (offset : Nat), offset ≤ file.length →
      offset ≤ (ctxReads file offset cs).1 ∧ (ctxReads file offset cs).1 ≤ file.length ∧
      (ctxReads file offset cs).2.2 = (file.drop offset).take ((ctxReads file offset cs).1 - offset) := by
    intro cs
    induction cs with
    | nil => intro offset h; simp [ctxReads, h]
    | cons c cs ih =>
      intro offset h
      obtain ⟨len, fail⟩ := c
      obtain ⟨h1, h2, h3, _, _⟩ := ctxRead_spec file offset h len fail
      rw [ctxReads]
      dsimp only
      generalize ctxRead file offset len fail = r at h1 h2 h3
      obtain ⟨k1, k2, k3⟩ := ih r.1 h1
      refine ⟨by omega, k2, ?_⟩
      rw [h3, k3]
      generalize (ctxReads file r.1 cs).1 = e at k1 k2
      have e1 : e - offset = (r.1 - offset) + (e - r.1) := by omega
      have e2 : file.drop r.1 = (file.drop offset).drop (r.1 - offset) := by
        rw [List.drop_drop]; congr 1; omega
      rw [e1, List.take_add, e2]
  have h := this cs 0 (Nat.zero_le _)
  exact ⟨h.2.1, by simpa using h.2.2⟩

/-- A request for `n` bytes that does not fail. -/
def request (n : Nat) : Int × Bool := ((n : Int), false)

/-- **C67.** When no request fails: the numbers returned add up to the bytes received, and asking for more bytes than the file has delivers the
whole file. -/
theorem C67_stream_reaches_end (file : List UInt8) (lens : List Nat) :
    let r := ctxReads file 0 (lens.map request)
    r.1 = min lens.sum file.length ∧ r.2.1.sum = (r.1 : Int) ∧ (file.length ≤ lens.sum → r.2.2 = file) := by
  have : ∀ (lens : List Nat) (offset : Nat), offset ≤ file.length →
      (ctxReads file offset (lens.map request)).1 = min (offset + lens.sum) file.length ∧
      (ctxReads file offset (lens.map request)).2.1.sum =
        ((ctxReads file offset (lens.map request)).1 : Int) - offset := by
    intro lens
    induction lens with
    | nil => intro offset h; simp [ctxReads, h]
    | cons n lens ih =>
      intro offset h
      obtain ⟨h1, h2, h3, h4, _⟩ := ctxRead_spec file offset h n false
      obtain ⟨h4, h5⟩ := h4 (by omega) rfl
      rw [List.map_cons, request, ctxReads]
      dsimp only
      generalize ctxRead file offset n false = r at h1 h2 h3 h4 h5
      obtain ⟨k1, k2⟩ := ih r.1 h1
      rw [Int.toNat_natCast] at h4
      refine ⟨?_, ?_⟩
      · rw [k1, List.sum_cons]; omega
      · rw [List.sum_cons, k2, h5]; omega
  obtain ⟨h1, h2⟩ := this lens 0 (Nat.zero_le _)
  have h3 := (C67_stream_is_prefix file (lens.map request)).2
  refine ⟨by rw [h1]; simp, by rw [h2]; simp, fun hle => ?_⟩
  rw [h3, h1, List.take_of_length_le (by omega)]

example : ctxReads [1, 2, 3, 4, 5] 0 [(2, false), (-1, false), (2, true), (4, false), (4, false)] = (5, [2, -1, -1, 3, 0], [1, 2, 3, 4, 5]) := by
  decide

/-- **C67.** Receiving over HTTP never writes outside the buffer, whatever the server sends. It succeeds exactly if the server sends at most
`count` bytes, and then the buffer has these bytes at its start and is otherwise unchanged. -/
theorem C67_http_buffer_safe (size off count : Nat) (pieces : List (List UInt8)) (h : off + count ≤ size) :
    (pieces.flatten.length ≤ count →
      httpRead size off count pieces = .ok (pieces.flatten.map some ++ List.replicate (count - pieces.flatten.length) none)) ∧
    (count < pieces.flatten.length → httpRead size off count pieces = .throws) := by
  have key : ∀ (pieces : List (List UInt8)) (got : List UInt8), got.length ≤ count →
      (got.length + pieces.flatten.length ≤ count →
        perform pieces ⟨got.map some ++ List.replicate (count - got.length) none, got.length, count⟩ =
          .ok (some ⟨(got ++ pieces.flatten).map some ++ List.replicate (count - (got ++ pieces.flatten).length) none,
            (got ++ pieces.flatten).length, count⟩)) ∧
      (count < got.length + pieces.flatten.length →
        perform pieces ⟨got.map some ++ List.replicate (count - got.length) none, got.length, count⟩ = .ok none) := by
    intro pieces
    induction pieces with
    | nil =>
      intro got hg
      refine ⟨fun _ => by simp [perform], fun h' => by simp at h'; omega⟩
    | cons c cs ih =>
      intro got hg
      have hfl : (c :: cs).flatten.length = c.length + cs.flatten.length := by simp
      rw [perform, writeCallback]
      dsimp only
      by_cases hc : got.length + c.length > count
      · rw [if_pos hc]
        simp only [Res.ok_bind]
        refine ⟨fun h' => by omega, fun _ => ?_⟩
        have : 0 ≠ c.length := by omega
        rw [if_pos this]
      · rw [if_neg hc]
        have hcopy : copyTo (got.map some ++ List.replicate (count - got.length) none) got.length c =
            .ok ((got ++ c).map some ++ List.replicate (count - (got ++ c).length) none) := by
          unfold copyTo
          rw [if_pos (by simp; omega)]
          congr 1
          have t1 : (got.map some ++ List.replicate (count - got.length) none).take got.length = got.map some := by
            rw [List.take_append_of_le_length (by simp), List.take_of_length_le (by simp)]
          have t2 : (got.map some ++ List.replicate (count - got.length) none).drop (got.length + c.length) =
              (List.replicate (count - (got ++ c).length) none : List (Option UInt8)) := by
            rw [List.drop_append, List.drop_eq_nil_of_le (by simp), List.nil_append, List.drop_replicate]
            congr 1
            simp; omega
          rw [t1, t2]
          simp
        rw [hcopy]
        simp only [Res.ok_bind, ne_eq, not_true, if_false]
        have hlen : (got ++ c).length = got.length + c.length := by simp
        have ih := ih (got ++ c) (by omega)
        rw [hlen] at ih
        rw [hlen]
        refine ⟨fun h' => ?_, fun h' => ?_⟩
        · rw [ih.1 (by omega)]
          simp
        · exact ih.2 (by omega)
  have h0 := key pieces [] (Nat.zero_le _)
  simp only [List.length_nil, List.map_nil, List.nil_append, Nat.sub_zero, Nat.zero_add] at h0
  unfold httpRead
  rw [if_neg (by omega)]
  refine ⟨fun h' => ?_, fun h' => ?_⟩
  · rw [h0.1 h']; rfl
  · rw [h0.2 h']; rfl

/-- **C67.** A request that does not lie wholly inside the file is refused without asking the server. -/
theorem C67_http_request_bounds (size off count : Nat) (pieces : List (List UInt8)) :
    size < off + count → httpRead size off count pieces = .throws := by
  intro h
  unfold httpRead
  rw [if_pos h]

/-- A response that is too short counts as success: the rest of the buffer keeps what was there before. -/
theorem C67_short_response_accepted : httpRead 4 0 4 [[1, 2]] = .ok [some 1, some 2, none, none] := by decide

end Fimex.Files.Chunks
