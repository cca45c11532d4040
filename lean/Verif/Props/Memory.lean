import Verif.Lemmas.Memory
/-! # C07, C08, C09, C10: the in-memory reader and writer, line reading, character buffers -/
namespace Sps.MemProps
open Spec

/-! ### C07 -/

/-- **C07** (for sizes that fit an `int`; see `C07_negation_huge_size`). Every program of reads on every buffer:
no call leaves the buffer; each call returns what the specification `memSpec` says about the bytes not delivered
yet; what was delivered is a prefix of the buffer; a further non-empty read reports end of file exactly when the
whole buffer was delivered. -/
theorem C07_reader_delivers_buffer_partial (buf : List UInt8) (ops : List MemOp) (n : Nat)
    (hlen : buf.length < 2 ^ 31) (hops : ∀ op ∈ ops, op.n < 2 ^ 31) (hn : 0 < n ∧ n < 2 ^ 31) :
    ∃ m outs rest r m', memRun (MemIo.create buf) ops = some (outs, m) ∧ outs = memSpec buf ops ∧
      buf = delivered outs ++ rest ∧ m.read n = some (r, m') ∧
      (r = .err Err.ERROR_IO_EOF ↔ delivered outs = buf) ∧
      (rest ≠ [] → r = .ok (rest.take n)) := by
  obtain ⟨m, e, w, hb, hd⟩ := MemIo.memRun_spec ops (m := MemIo.create buf) ⟨by simp [MemIo.create], hlen⟩ hops
  have h0 : (MemIo.create buf).buf.drop (MemIo.create buf).pos = buf := by simp [MemIo.create]
  rw [h0] at e hd
  obtain ⟨_, c2, c3⟩ := MemIo.read_spec w hn.2
  by_cases hr : m.buf.drop m.pos = []
  · refine ⟨m, _, m.buf.drop m.pos, _, m, e, rfl, hd, c2 (by omega) hr, ⟨fun _ => ?_, fun _ => rfl⟩,
      fun hne => absurd hr hne⟩
    rw [hr, List.append_nil] at hd; exact hd.symm
  · obtain ⟨m', e', _⟩ := c3 (by omega) hr
    refine ⟨m, _, m.buf.drop m.pos, _, m', e, rfl, hd, e', ⟨fun hc => (by cases hc), fun hc => ?_⟩, fun _ => rfl⟩
    have := congrArg List.length hd
    rw [List.length_append, hc] at this
    exact absurd (List.length_eq_zero_iff.1 (by omega)) hr

example : (∀ op ∈ [MemOp.read 2, .readFully 9, .readFully 3], op.n < 2 ^ 31) ∧ (0 < 4 ∧ 4 < 2 ^ 31) := by decide
example : (memRun (MemIo.create [1, 2, 3, 4, 5, 6]) [.read 2, .readFully 9, .readFully 3, .read 4]).map (·.1) =
    some [.ok [1, 2], .err Err.ERROR_IO_EOF, .ok [3, 4, 5], .ok [6]] := by decide

/-- `read_fully` is all or nothing, from every reachable state.

Missing: sizes from 2^31 on (`C07_negation_huge_size`). -/
theorem C07_read_fully_all_or_nothing_partial (buf : List UInt8) (ops : List MemOp) (n : Nat)
    (hlen : buf.length < 2 ^ 31) (hops : ∀ op ∈ ops, op.n < 2 ^ 31) (hn : n < 2 ^ 31) :
    ∃ m outs rest, memRun (MemIo.create buf) ops = some (outs, m) ∧ buf = delivered outs ++ rest ∧
      ((∃ m', m.readFully n = some (.ok (rest.take n), m') ∧ (rest.take n).length = n) ∨
       m.readFully n = some (.err Err.ERROR_IO_EOF, m)) := by
  obtain ⟨m, e, w, hb, hd⟩ := MemIo.memRun_spec ops (m := MemIo.create buf) ⟨by simp [MemIo.create], hlen⟩ hops
  have h0 : (MemIo.create buf).buf.drop (MemIo.create buf).pos = buf := by simp [MemIo.create]
  rw [h0] at e hd
  refine ⟨m, _, m.buf.drop m.pos, e, hd, ?_⟩
  obtain ⟨c1, c2⟩ := MemIo.readFully_spec w hn
  by_cases hr : n = 0 ∨ (m.buf.drop m.pos).length < n
  · exact Or.inr (c1 hr)
  · obtain ⟨m', e', _⟩ := c2 hr
    exact Or.inl ⟨m', e', by rw [List.length_take]; omega⟩

example : (7 : Nat) < 2 ^ 31 ∧ ∀ op ∈ [MemOp.read 2], op.n < 2 ^ 31 := by decide

/-- **C07 fails for sizes of 2^31 or more**: the size is cast to `int`, becomes negative, passes the `nread <= 0` test as
a huge unsigned number and the copy leaves the buffer. -/
theorem C07_negation_huge_size : (MemIo.create [1, 2, 3]).read (2 ^ 31) = none ∧
    (MemIo.create [1, 2, 3]).readFully (2 ^ 31) = none := by decide

/-! ### C08 -/

/-- What `Spec.lines` means: no line contains a newline, and ending each line with a newline gives back the text, up to
a newline missing at the end of the text. -/
theorem C08_lines_meaning (t : List UInt8) :
    (∀ l ∈ lines t, (10 : UInt8) ∉ l) ∧
    ((lines t).flatMap (· ++ [10]) = t ∨ ((lines t).flatMap (· ++ [10]) = t ++ [10] ∧ t ≠ [] ∧ t.getLast? ≠ some 10)) := by
  induction h : t.length using Nat.strongRecOn generalizing t with
  | ind n ih =>
    rcases split_nl t with hno | ⟨l, r, e, hno⟩
    · by_cases hne : t = []
      · subst hne; simp [lines]
      · rw [lines_no_nl hno hne]
        refine ⟨by simpa using hno, Or.inr ⟨by simp, hne, fun c => ?_⟩⟩
        exact hno (List.mem_of_getLast? c)
    · have hlr : r.length < n := by rw [← h, e]; simp; omega
      obtain ⟨a, b⟩ := ih r.length hlr r rfl
      rw [e, lines_append_nl hno]
      refine ⟨?_, ?_⟩
      · intro x hx
        rcases List.mem_cons.1 hx with rfl | hx
        · exact hno
        · exact a x hx
      · rcases b with b | ⟨b, b1, b2⟩
        · exact Or.inl (by rw [List.flatMap_cons, b]; simp)
        · refine Or.inr ⟨by rw [List.flatMap_cons, b]; simp, by simp, ?_⟩
          rw [List.getLast?_append, List.getLast?_cons]
          cases hg : r.getLast? with
          | none => rw [List.getLast?_eq_none_iff] at hg; exact absurd hg b1
          | some x => rw [hg] at b2; simpa using b2

/-- **C08, files.** Any number of `read_line` calls on a file of any text gives its lines in order, then end of
file for ever. -/
theorem C08_file_read_line (text : List UInt8) (n : Nat) :
    fileLines { rest := text, eof := false, line := 0 } n = lineResults (lines text) n :=
  fileLines_spec n _ rfl

example : fileLines { rest := [97, 10, 10, 98, 10], eof := false, line := 0 } 4 =
    [.ok [97], .ok [], .ok [98], .err Err.ERROR_IO_EOF] := by decide

/-- **C08, memory** (for texts not ending in a newline).

Missing: texts that end in a newline (the negation of C08). -/
theorem C08_memory_read_line_partial (text : List UInt8) (n : Nat) (h : text.getLast? ≠ some 10) :
    memLines (MemIo.create text) n = some (lineResults (lines text) n) := by
  have := memLines_spec n (MemIo.create text) (by simpa [MemIo.create] using h)
  simpa [MemIo.create] using this

example : ([97, 10, 10, 98] : List UInt8).getLast? ≠ some 10 := by decide
example : memLines (MemIo.create [97, 10, 10, 98]) 4 = some [.ok [97], .ok [], .ok [98], .err Err.ERROR_IO_EOF] := by decide

/-- **C08, memory**: whatever the text, no call reads outside it, and the calls together give its bytes but for newlines that are not the last byte.

Missing: texts that end in a newline (the negation of C08). -/
theorem C08_memory_safe_partial (text : List UInt8) (n : Nat) : ∃ rs, memLines (MemIo.create text) n = some rs ∧ rs.length = n ∧
    (text.length ≤ n → (rs.flatMap fun r => match r with | .ok l => l | .err _ => []) = text.dropLast.filter (· ≠ 10) ++ text.getLast?.toList) := by
  obtain ⟨rs, h1, h2, h3⟩ := memLines_any n (MemIo.create text)
  exact ⟨rs, h1, h2, fun h => h3 h⟩

example : memLines (MemIo.create [97, 10, 10, 98, 10]) 5 = some [.ok [97], .ok [], .ok [98, 10], .err Err.ERROR_IO_EOF, .err Err.ERROR_IO_EOF] := by decide

/-- **C08 fails in memory** for a newline that is the last byte: it is kept in the line. -/
theorem C08_negation_last_newline :
    memLines (MemIo.create [97, 10]) 2 = some [.ok [97, 10], .err Err.ERROR_IO_EOF] ∧ lines [97, 10] = [[97]] := by decide

/-! ### C09 -/

/-- **C09**, the part that holds: one write to a fresh writer is refused exactly when it does not fit, and otherwise
puts its bytes at the start and changes nothing else.

Missing: further writes, which overwrite the first (the negation of C09). -/
theorem C09_single_write_partial (buf d : List UInt8) (hlen : buf.length < 2 ^ 31) :
    (buf.length < d.length → (MemIo.create buf).write d = some (Err.ERROR_MEM_SOCKET_WRITE, MemIo.create buf)) ∧
    (d.length ≤ buf.length → ∃ m', (MemIo.create buf).write d = some (Err.SUCCESS, m') ∧
      m'.buf = d ++ buf.drop d.length) := by
  have e : sub32 (MemIo.create buf).buf.length (MemIo.create buf).pos = buf.length :=
    sub32_le (Nat.zero_le _) (by simp [MemIo.create]; omega)
  unfold MemIo.write
  rw [e]
  refine ⟨fun h => if_pos h, fun h => ?_⟩
  rw [if_neg (by omega), if_pos (by simp [MemIo.create]; omega)]
  exact ⟨_, rfl, by simp [MemIo.create]⟩

example : ([1, 2] : List UInt8).length ≤ [0, 0, 0].length := by decide

/-- **C09 fails**: the position is not advanced, so for every pair of writes of equal size that fit, the second one
replaces the first. -/
theorem C09_negation_writes_overwrite (buf d d' : List UInt8) (hlen : buf.length < 2 ^ 31)
    (hd : d.length ≤ buf.length) (hd' : d'.length = d.length) :
    ∃ m1 m2, (MemIo.create buf).write d = some (Err.SUCCESS, m1) ∧ m1.write d' = some (Err.SUCCESS, m2) ∧
      m2.buf = d' ++ buf.drop d.length := by
  have e1 : (MemIo.create buf).write d =
      some (Err.SUCCESS, MemIo.create (d ++ buf.drop d.length)) := by
    have e : sub32 (MemIo.create buf).buf.length (MemIo.create buf).pos = buf.length :=
      sub32_le (Nat.zero_le _) (by simp [MemIo.create]; omega)
    unfold MemIo.write
    rw [e, if_neg (by omega), if_pos (by simp [MemIo.create]; omega)]
    simp [MemIo.create]
  have hl : (d ++ buf.drop d.length).length = buf.length := by simp; omega
  obtain ⟨m2, e2, e3⟩ := (C09_single_write_partial (d ++ buf.drop d.length) d' (by omega)).2 (by omega)
  exact ⟨_, m2, e1, e2, by rw [e3, hd', List.drop_left' rfl]⟩

example : ([1, 2] : List UInt8).length ≤ [0, 0, 0, 0].length ∧ [3, 4].length = ([1, 2] : List UInt8).length := by decide

/-! ### C10 -/

/-- **C10** (no reserved head area). For every capacity and every sequence of appends: if they fit, the content is the
concatenation of the chunks in order and the remaining capacity shrank by exactly that much; if they do not fit, the
process aborts.

Missing: buffers with a reserved head (`C10_negation_head_ignored`). -/
theorem C10_appends_concatenate_partial (mem0 : List UInt8) (ds : List (List UInt8)) (hcap : mem0.length < 2 ^ 32) :
    (ds.flatten.length ≤ mem0.length → ∃ b, (CharBuf.ofCap mem0 0).appendAll ds = some b ∧
      b.content = ds.flatten ∧ b.size = ds.flatten.length ∧
      b.remain = (CharBuf.ofCap mem0 0).remain - ds.flatten.length) ∧
    (mem0.length < ds.flatten.length → (CharBuf.ofCap mem0 0).appendAll ds = none) := by
  have hw : (CharBuf.ofCap mem0 0).WF := ⟨by simp [CharBuf.ofCap], by simp [CharBuf.ofCap], by simpa [CharBuf.ofCap] using hcap⟩
  have hl : (CharBuf.ofCap mem0 0).len = 0 := rfl
  have hc : (CharBuf.ofCap mem0 0).cap = mem0.length := by simp [CharBuf.ofCap]
  obtain ⟨a, b⟩ := CharBuf.appendAll_spec ds hw
  rw [hl, hc] at a b
  refine ⟨fun hf => ?_, fun hf => b (by omega)⟩
  obtain ⟨b', e, w, c, h, l, t, _⟩ := a (by omega)
  have hh : b'.head = 0 := h
  refine ⟨b', e, ?_, by simp [CharBuf.size, l], ?_⟩
  · rw [CharBuf.content, hh, List.drop_zero, t]; simp
  · rw [w.remain, hw.remain, c, l, hl, hc]; omega

example : [[1, 2], [], [3]].flatten.length ≤ (List.replicate 5 (0 : UInt8)).length := by decide

/-- **C10** for bytes put into the buffer behind the appended ones and then counted with `skip`: they are part of the content, after
what was appended, when they fit; counting more than there is room for aborts.

Missing: buffers with a reserved head (`C10_negation_head_ignored`). -/
theorem C10_skip_partial (mem0 : List UInt8) (ds : List (List UInt8)) (n : Nat) (hcap : mem0.length < 2 ^ 32)
    (hf : ds.flatten.length ≤ mem0.length) :
    ∃ b, (CharBuf.ofCap mem0 0).appendAll ds = some b ∧
      (ds.flatten.length + n ≤ mem0.length → ∃ b', b.skip n = some b' ∧
        b'.content = ds.flatten ++ (mem0.drop ds.flatten.length).take n ∧ b'.size = ds.flatten.length + n ∧
        b'.remain = mem0.length - ds.flatten.length - n) ∧
      (mem0.length < ds.flatten.length + n → b.skip n = none) := by
  have hw : (CharBuf.ofCap mem0 0).WF := ⟨by simp [CharBuf.ofCap], by simp [CharBuf.ofCap], by simpa [CharBuf.ofCap] using hcap⟩
  have hl : (CharBuf.ofCap mem0 0).len = 0 := rfl
  have hc : (CharBuf.ofCap mem0 0).cap = mem0.length := by simp [CharBuf.ofCap]
  obtain ⟨b, e, w, c, h, l, t, dr⟩ := (CharBuf.appendAll_spec ds hw).1 (by rw [hl, hc]; omega)
  have hh : b.head = 0 := h
  rw [hl] at l t dr
  rw [hc] at c
  simp only [Nat.zero_add] at l
  have hr : b.remain = mem0.length - ds.flatten.length := by rw [w.remain, c, l]
  have hm : b.mem = ds.flatten ++ mem0.drop ds.flatten.length := by
    rw [← List.take_append_drop b.len b.mem, t, dr]; simp [CharBuf.ofCap]
  refine ⟨b, e, fun hn => ?_, fun hn => ?_⟩
  · refine ⟨{ b with len := b.len + n }, by simp only [CharBuf.skip, hr]; rw [if_pos (by omega)], ?_, by simp [CharBuf.size, l], ?_⟩
    · simp only [CharBuf.content, hh, List.drop_zero, hm, l]
      rw [List.take_length_add_append]
    · have hw' : ({ b with len := b.len + n } : CharBuf).WF := ⟨by simp only [c, l]; omega, w.2, w.3⟩
      rw [hw'.remain]; simp only [c, l]; omega
  · simp only [CharBuf.skip, hr]; rw [if_neg (by omega)]

example : [[1, 2], [], [3]].flatten.length + 2 ≤ (List.replicate 5 (0 : UInt8)).length := by decide

/-- A deep copy of any bytes with any head area holds exactly those bytes and is full. -/
theorem C10_deep_copy (data junk d : List UInt8) (hcap : data.length < 2 ^ 32) :
    (CharBuf.deepCopy data junk).content = data ∧ (CharBuf.deepCopy data junk).remain = 0 ∧
      (d ≠ [] → (CharBuf.deepCopy data junk).append d = none) := by
  have hw : (CharBuf.deepCopy data junk).WF := ⟨by simp [CharBuf.deepCopy], by simp [CharBuf.deepCopy]; omega, hcap⟩
  refine ⟨by simp [CharBuf.content, CharBuf.deepCopy], ?_, fun hd => ?_⟩
  · rw [hw.remain]; simp [CharBuf.deepCopy]
  · apply (CharBuf.append_spec hw d).2
    have : 0 < d.length := List.length_pos_iff.2 hd
    simp only [CharBuf.deepCopy]; omega

/-- **C10 fails with a reserved head area** (packets created empty reserve 20 bytes,
`sps_avformat_packet.cpp:52-73`): chunks are stored from the start of the allocation while the content is read behind
the head, so for every head size `0 < h` the first `h` bytes appended are not part of the content. -/
theorem C10_negation_head_ignored :
    ((CharBuf.ofCap (List.replicate 6 0) 2).append [1, 2, 3]).map CharBuf.content = some [3, 0, 0] := by decide

/-- What a buffer with a head area holds after appends that fit: the appended bytes without the first `head`, then
bytes that were never written.

Missing: buffers with a reserved head (`C10_negation_head_ignored`). -/
theorem C10_content_with_head_partial (mem0 : List UInt8) (head : Nat) (ds : List (List UInt8)) (hh : head ≤ mem0.length)
    (hcap : mem0.length < 2 ^ 32) (hf : ds.flatten.length ≤ mem0.length - head) :
    ∃ b, (CharBuf.ofCap mem0 head).appendAll ds = some b ∧ b.size = ds.flatten.length ∧
      b.content = ((ds.flatten ++ mem0.drop ds.flatten.length).drop head).take ds.flatten.length := by
  have hw : (CharBuf.ofCap mem0 head).WF :=
    ⟨by simp [CharBuf.ofCap], by simp [CharBuf.ofCap]; omega, by simp [CharBuf.ofCap]; omega⟩
  have hl : (CharBuf.ofCap mem0 head).len = 0 := rfl
  have hc : (CharBuf.ofCap mem0 head).cap = mem0.length - head := by simp [CharBuf.ofCap]
  obtain ⟨b', e, w, c, h, l, t, d⟩ := (CharBuf.appendAll_spec ds hw).1 (by rw [hl, hc]; omega)
  rw [hl] at l t d
  have hhd : b'.head = head := h
  refine ⟨b', e, by simp [CharBuf.size, l], ?_⟩
  rw [CharBuf.content, hhd, l]
  have : b'.mem = ds.flatten ++ mem0.drop ds.flatten.length := by
    rw [← List.take_append_drop b'.len b'.mem, t, d]; simp [CharBuf.ofCap]
  rw [this]; simp

example : (2 : Nat) ≤ (List.replicate 6 (0 : UInt8)).length ∧
    [[1, 2], [3]].flatten.length ≤ (List.replicate 6 (0 : UInt8)).length - 2 := by decide

end Sps.MemProps
