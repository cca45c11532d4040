import Verif.Spec.Memory
import Verif.Model.CharBuffer
/-! # Lemmas about the in-memory reader, line reading and character buffers -/
namespace Sps
open Spec

namespace MemIo

/-- The state is sane. -/
structure WF (m : MemIo) : Prop where
  pos : m.pos ≤ m.buf.length
  len : m.buf.length < 2 ^ 31

theorem nread_eq {m : MemIo} (h : m.WF) {n : Nat} (hn : n < 2 ^ 31) :
    u64 (min (i32 n) (i32 (sub32 m.buf.length m.pos))) = min n (m.buf.length - m.pos) := by
  have h1 := h.pos
  have h2 := h.len
  rw [sub32_le h1 (by omega), i32_small hn, i32_small (by omega)]
  have : (min (n : Int) ((m.buf.length - m.pos : Nat) : Int)) = ((min n (m.buf.length - m.pos) : Nat) : Int) := by omega
  rw [this, u64_nat (by omega)]

theorem read_spec {m : MemIo} (h : m.WF) {n : Nat} (hn : n < 2 ^ 31) :
    (n = 0 → m.read n = some (.err Err.ERROR_IO_BUFFER_FULL, m)) ∧
    (n ≠ 0 → m.buf.drop m.pos = [] → m.read n = some (.err Err.ERROR_IO_EOF, m)) ∧
    (n ≠ 0 → m.buf.drop m.pos ≠ [] → ∃ m', m.read n = some (.ok ((m.buf.drop m.pos).take n), m') ∧ m'.WF ∧
      m'.buf.drop m'.pos = (m.buf.drop m.pos).drop n ∧ m'.buf = m.buf) := by
  have hp := h.pos
  unfold read
  rw [nread_eq h hn]
  refine ⟨fun h0 => by simp [h0], fun h0 hd => ?_, fun h0 hd => ?_⟩
  · have : m.buf.length - m.pos = 0 := by have := congrArg List.length hd; simpa using this
    simp [h0, this]
  · have hl : 0 < m.buf.length - m.pos := by
      rcases Nat.eq_zero_or_pos (m.buf.length - m.pos) with c | c
      · exact absurd (List.drop_eq_nil_of_le (by omega)) hd
      · exact c
    simp only [if_neg h0]
    rw [if_neg (by omega), if_pos (by omega)]
    have ht : (m.buf.drop m.pos).take (min n (m.buf.length - m.pos)) = (m.buf.drop m.pos).take n := by
      rw [List.take_eq_take_iff]; simp
    rw [ht]
    refine ⟨_, rfl, ⟨?_, h.len⟩, ?_, rfl⟩
    · show m.pos + min n (m.buf.length - m.pos) ≤ m.buf.length; omega
    · show m.buf.drop (m.pos + min n (m.buf.length - m.pos)) = _
      rw [List.drop_drop]
      rcases Nat.le_total n (m.buf.length - m.pos) with c | c
      · rw [Nat.min_eq_left c]
      · rw [Nat.min_eq_right c, List.drop_eq_nil_of_le (by omega), List.drop_eq_nil_of_le (by omega)]

theorem readFully_spec {m : MemIo} (h : m.WF) {n : Nat} (hn : n < 2 ^ 31) :
    (n = 0 ∨ (m.buf.drop m.pos).length < n → m.readFully n = some (.err Err.ERROR_IO_EOF, m)) ∧
    (¬(n = 0 ∨ (m.buf.drop m.pos).length < n) →
      ∃ m', m.readFully n = some (.ok ((m.buf.drop m.pos).take n), m') ∧ m'.WF ∧
      m'.buf.drop m'.pos = (m.buf.drop m.pos).drop n ∧ m'.buf = m.buf) := by
  have hp := h.pos
  unfold readFully
  rw [nread_eq h hn]
  simp only [List.length_drop]
  refine ⟨fun h0 => by rw [if_pos (by omega)], fun h0 => ?_⟩
  rw [if_neg (by omega), Nat.min_eq_left (by omega), if_pos (by omega)]
  exact ⟨_, rfl, ⟨by show m.pos + n ≤ m.buf.length; omega, h.len⟩, by simp, rfl⟩

theorem memRun_spec (ops : List MemOp) {m : MemIo} (h : m.WF) (hops : ∀ op ∈ ops, op.n < 2 ^ 31) :
    ∃ m', memRun m ops = some (memSpec (m.buf.drop m.pos) ops, m') ∧ m'.WF ∧ m'.buf = m.buf ∧
      m.buf.drop m.pos = delivered (memSpec (m.buf.drop m.pos) ops) ++ m'.buf.drop m'.pos := by
  induction ops generalizing m with
  | nil => exact ⟨m, rfl, h, rfl, by simp [memSpec, delivered]⟩
  | cons op ops ih =>
    have hop := hops op (by simp)
    have hops' : ∀ op ∈ ops, op.n < 2 ^ 31 := fun o ho => hops o (by simp [ho])
    cases op with
    | read n =>
      obtain ⟨a, b, c⟩ := read_spec h (n := n) hop
      by_cases h0 : n = 0
      · obtain ⟨m', e, w, hb, hd⟩ := ih h hops'
        refine ⟨m', ?_, w, hb, ?_⟩
        · simp only [memRun, a h0, e, memSpec, if_pos h0, Option.bind_eq_bind, Option.bind_some, pure]
        · simp only [memSpec, if_pos h0, delivered]; exact hd
      · by_cases hr : m.buf.drop m.pos = []
        · obtain ⟨m', e, w, hb, hd⟩ := ih h hops'
          refine ⟨m', ?_, w, hb, ?_⟩
          · simp only [memRun, b h0 hr, e, memSpec, if_neg h0, if_pos hr, Option.bind_eq_bind, Option.bind_some, pure]
          · simp only [memSpec, if_neg h0, if_pos hr, delivered]; exact hd
        · obtain ⟨m1, e1, w1, d1, b1⟩ := c h0 hr
          obtain ⟨m', e, w, hb, hd⟩ := ih w1 hops'
          rw [d1] at e hd
          refine ⟨m', ?_, w, hb.trans b1, ?_⟩
          · simp only [memRun, e1, e, memSpec, if_neg h0, if_neg hr, Option.bind_eq_bind, Option.bind_some, pure]
          · simp only [memSpec, if_neg h0, if_neg hr, delivered]
            rw [List.append_assoc, ← hd, List.take_append_drop]
    | readFully n =>
      obtain ⟨a, b⟩ := readFully_spec h (n := n) hop
      by_cases hr : n = 0 ∨ (m.buf.drop m.pos).length < n
      · obtain ⟨m', e, w, hb, hd⟩ := ih h hops'
        refine ⟨m', ?_, w, hb, ?_⟩
        · simp only [memRun, a hr, e, memSpec, if_pos hr, Option.bind_eq_bind, Option.bind_some, pure]
        · simp only [memSpec, if_pos hr, delivered]; exact hd
      · obtain ⟨m1, e1, w1, d1, b1⟩ := b hr
        obtain ⟨m', e, w, hb, hd⟩ := ih w1 hops'
        rw [d1] at e hd
        refine ⟨m', ?_, w, hb.trans b1, ?_⟩
        · simp only [memRun, e1, e, memSpec, if_neg hr, Option.bind_eq_bind, Option.bind_some, pure]
        · simp only [memSpec, if_neg hr, delivered]
          rw [List.append_assoc, ← hd, List.take_append_drop]

end MemIo

/-! ### Lines -/

theorem lines_no_nl {t : List UInt8} (h : (10 : UInt8) ∉ t) (hne : t ≠ []) : lines t = [t] := by
  induction t with
  | nil => exact absurd rfl hne
  | cons b bs ih =>
    simp only [List.mem_cons, not_or] at h
    have hb : ¬ b = 10 := fun e => h.1 e.symm
    simp only [lines, if_neg hb]
    cases bs with
    | nil => simp [lines]
    | cons c cs => rw [ih h.2 (by simp)]

theorem lines_append_nl {l : List UInt8} (h : (10 : UInt8) ∉ l) (r : List UInt8) :
    lines (l ++ 10 :: r) = l :: lines r := by
  induction l with
  | nil => simp [lines]
  | cons b bs ih =>
    simp only [List.mem_cons, not_or] at h
    have hb : ¬ b = 10 := fun e => h.1 e.symm
    simp only [List.cons_append, lines, if_neg hb, ih h.2]

/-- A text splits at its first newline. -/
theorem split_nl (t : List UInt8) : (10 : UInt8) ∉ t ∨ ∃ l r, t = l ++ 10 :: r ∧ (10 : UInt8) ∉ l := by
  induction t with
  | nil => simp
  | cons b bs ih =>
    by_cases hb : b = 10
    · exact Or.inr ⟨[], bs, by simp [hb], by simp⟩
    · rcases ih with h | ⟨l, r, e, h⟩
      · exact Or.inl (by simp [h, Ne.symm hb])
      · exact Or.inr ⟨b :: l, r, by simp [e], by simp [h, Ne.symm hb]⟩

theorem scanLine_no_nl {t : List UInt8} (h : (10 : UInt8) ∉ t) (p : Nat) : MemIo.scanLine t p = p + t.length := by
  induction t generalizing p with
  | nil => rfl
  | cons b bs ih =>
    simp only [List.mem_cons, not_or] at h
    have hb : ¬ b = 10 := fun e => h.1 e.symm
    rw [MemIo.scanLine, if_neg hb, ih h.2]; simp; omega

theorem scanLine_nl {l : List UInt8} (h : (10 : UInt8) ∉ l) (r : List UInt8) (p : Nat) :
    MemIo.scanLine (l ++ 10 :: r) p = p + l.length + 1 := by
  induction l generalizing p with
  | nil => simp [MemIo.scanLine]
  | cons b bs ih =>
    simp only [List.mem_cons, not_or] at h
    have hb : ¬ b = 10 := fun e => h.1 e.symm
    rw [List.cons_append, MemIo.scanLine, if_neg hb, ih h.2]; simp; omega

theorem getline_no_nl {t : List UInt8} (h : (10 : UInt8) ∉ t) : FileIo.getline t = (t, [], true) := by
  induction t with
  | nil => rfl
  | cons b bs ih =>
    simp only [List.mem_cons, not_or] at h
    have hb : ¬ b = 10 := fun e => h.1 e.symm
    simp only [FileIo.getline, if_neg hb, ih h.2]

theorem getline_nl {l : List UInt8} (h : (10 : UInt8) ∉ l) (r : List UInt8) :
    FileIo.getline (l ++ 10 :: r) = (l, r, false) := by
  induction l with
  | nil => simp [FileIo.getline]
  | cons b bs ih =>
    simp only [List.mem_cons, not_or] at h
    have hb : ¬ b = 10 := fun e => h.1 e.symm
    simp only [List.cons_append, FileIo.getline, if_neg hb, ih h.2]

theorem lineResults_nil (n : Nat) : lineResults [] (n + 1) = .err Err.ERROR_IO_EOF :: lineResults [] n := by
  simp [lineResults, List.replicate_succ]

theorem lineResults_cons (l : List UInt8) (ls : List (List UInt8)) (n : Nat) :
    lineResults (l :: ls) (n + 1) = .ok l :: lineResults ls n := by
  simp only [lineResults, List.map_cons, List.cons_append, List.take_succ_cons, List.replicate_succ']
  rw [← List.append_assoc, List.take_append_of_le_length]
  simp

theorem readLine_last {m : MemIo} (hp : ¬ m.buf.length ≤ m.pos) (h : MemIo.scanLine (m.buf.drop m.pos) m.pos = m.buf.length) :
    m.readLine = some (.ok (m.buf.drop m.pos), { m with pos := m.buf.length, line := m.line + 1 }) := by
  have hlen : (m.buf.drop m.pos).length = m.buf.length - m.pos := by simp
  simp only [MemIo.readLine, if_neg hp, h, Nat.lt_irrefl, if_false]
  rw [if_pos (by omega), List.take_of_length_le (by omega)]

theorem readLine_line {m : MemIo} (hp : ¬ m.buf.length ≤ m.pos) {l r : List UInt8} (e : m.buf.drop m.pos = l ++ 10 :: r) (hno : (10 : UInt8) ∉ l) (hr : r ≠ []) :
    m.readLine = some (.ok l, { m with pos := m.pos + l.length + 1, line := m.line + 1 }) ∧ m.buf.drop (m.pos + l.length + 1) = r := by
  have hlen : (m.buf.drop m.pos).length = m.buf.length - m.pos := by simp
  have hll : (m.buf.drop m.pos).length = l.length + 1 + r.length := by rw [e]; simp; omega
  have hr'l : 0 < r.length := List.length_pos_iff.2 hr
  constructor
  · simp only [MemIo.readLine, if_neg hp, e, scanLine_nl hno]
    have h1 : m.pos + l.length + 1 < m.buf.length := by omega
    have h2 : m.pos + l.length + 1 - m.pos - 1 = l.length := by omega
    simp only [h1, if_true, h2]
    rw [if_pos (by omega), List.take_left' rfl]
  · rw [Nat.add_assoc, ← List.drop_drop, e]
    rw [← List.drop_drop, List.drop_left' rfl]; rfl

theorem memLines_spec (n : Nat) : ∀ (m : MemIo), (m.buf.drop m.pos).getLast? ≠ some 10 →
    memLines m n = some (lineResults (lines (m.buf.drop m.pos)) n) := by
  induction n with
  | zero => intro m _; simp [memLines, lineResults]
  | succ n ih =>
    intro m hl
    by_cases hp : m.buf.length ≤ m.pos
    · have e : m.readLine = some (.err Err.ERROR_IO_EOF, m) := by simp [MemIo.readLine, hp]
      have hd : m.buf.drop m.pos = [] := List.drop_eq_nil_of_le hp
      rw [memLines, e, Option.bind_some, ih m hl, hd]
      simp only [lines, Option.map_some]
      rw [lineResults_nil]
    · have hlen : (m.buf.drop m.pos).length = m.buf.length - m.pos := by simp
      have hrl : m.buf.drop m.pos ≠ [] := by intro c; rw [c] at hlen; simp at hlen; omega
      rcases split_nl (m.buf.drop m.pos) with hno | ⟨l, r', e, hno⟩
      · rw [memLines, readLine_last hp (by rw [scanLine_no_nl hno, hlen]; omega), Option.bind_some, ih]
        · rw [lines_no_nl hno hrl, lineResults_cons]; simp [lines]
        · simp
      · have hr' : r' ≠ [] := by
          intro c; rw [e, c] at hl; simp at hl
        obtain ⟨e1, hd'⟩ := readLine_line hp e hno hr'
        rw [memLines, e1, Option.bind_some, ih]
        · show some (_ :: lineResults (lines (m.buf.drop (m.pos + l.length + 1))) n) = _
          rw [hd', e, lines_append_nl hno, lineResults_cons]
        · show (m.buf.drop (m.pos + l.length + 1)).getLast? ≠ _
          rw [hd']
          rw [e] at hl
          rw [List.getLast?_append] at hl
          intro c
          apply hl
          rw [List.getLast?_cons, c]; rfl

/-- Whatever the text. -/
theorem memLines_any (n : Nat) : ∀ (m : MemIo), ∃ rs, memLines m n = some rs ∧ rs.length = n ∧ ((m.buf.drop m.pos).length ≤ n →
    (rs.flatMap fun r => match r with | .ok l => l | .err _ => []) = (m.buf.drop m.pos).dropLast.filter (· ≠ 10) ++ (m.buf.drop m.pos).getLast?.toList) := by
  induction n with
  | zero => exact fun m => ⟨[], rfl, rfl, fun h => by rw [List.length_eq_zero_iff.1 (Nat.le_zero.1 h)]; rfl⟩
  | succ n ih =>
    intro m
    by_cases hp : m.buf.length ≤ m.pos
    · have e : m.readLine = some (.err Err.ERROR_IO_EOF, m) := by simp [MemIo.readLine, hp]
      have hd : m.buf.drop m.pos = [] := List.drop_eq_nil_of_le hp
      obtain ⟨rs, h1, h2, h3⟩ := ih m
      rw [hd] at h3 ⊢
      exact ⟨_, by rw [memLines, e, Option.bind_some, h1]; rfl, by simp [h2], fun _ => by simpa using h3 (by simp)⟩
    · have hlen : (m.buf.drop m.pos).length = m.buf.length - m.pos := by simp
      have hrl : m.buf.drop m.pos ≠ [] := by intro c; rw [c] at hlen; simp at hlen; omega
      have fin : MemIo.scanLine (m.buf.drop m.pos) m.pos = m.buf.length → (10 : UInt8) ∉ (m.buf.drop m.pos).dropLast →
          ∃ rs, memLines m (n + 1) = some rs ∧ rs.length = n + 1 ∧ ((m.buf.drop m.pos).length ≤ n + 1 →
            (rs.flatMap fun r => match r with | .ok l => l | .err _ => []) = (m.buf.drop m.pos).dropLast.filter (· ≠ 10) ++ (m.buf.drop m.pos).getLast?.toList) := by
        intro h hno
        obtain ⟨rs, h1, h2, h3⟩ := ih { m with pos := m.buf.length, line := m.line + 1 }
        refine ⟨_, by rw [memLines, readLine_last hp h, Option.bind_some, h1]; rfl, by simp [h2], fun hle => ?_⟩
        rw [List.flatMap_cons, h3 (by simp)]
        have hf : (m.buf.drop m.pos).dropLast.filter (· ≠ 10) = (m.buf.drop m.pos).dropLast := by
          rw [List.filter_eq_self]
          intro a ha
          simp only [ne_eq, decide_not, Bool.not_eq_true', decide_eq_false_iff_not]
          exact fun c => hno (c ▸ ha)
        rw [hf, List.getLast?_eq_some_getLast hrl]
        rw [Option.toList_some, List.dropLast_concat_getLast hrl]
        simp
      rcases split_nl (m.buf.drop m.pos) with hno | ⟨l, r', e, hno⟩
      · exact fin (by rw [scanLine_no_nl hno, hlen]; omega) (fun c => hno (List.dropLast_subset _ c))
      · by_cases hr' : r' = []
        · subst hr'
          refine fin ?_ (by rw [e]; simpa using hno)
          rw [e, scanLine_nl hno]
          rw [e] at hlen
          simp at hlen
          omega
        · obtain ⟨e1, hd'⟩ := readLine_line hp e hno hr'
          obtain ⟨rs, h1, h2, h3⟩ := ih { m with pos := m.pos + l.length + 1, line := m.line + 1 }
          refine ⟨_, by rw [memLines, e1, Option.bind_some, h1]; rfl, by simp [h2], fun hle => ?_⟩
          simp only [hd'] at h3
          rw [List.flatMap_cons, h3 (by rw [e] at hle; simp at hle; omega), e]
          have hf : l.filter (· ≠ 10) = l := by
            rw [List.filter_eq_self]
            intro a ha
            simp only [ne_eq, decide_not, Bool.not_eq_true', decide_eq_false_iff_not]
            exact fun c => hno (c ▸ ha)
          rw [List.dropLast_append_of_ne_nil (by simp), List.dropLast_cons_of_ne_nil hr', List.filter_append, hf, List.filter_cons]
          simp [List.getLast?_append, List.getLast?_cons, List.getLast?_eq_some_getLast hr']

theorem fileLines_eof (n : Nat) (f : FileIo) (h : f.eof = true) :
    fileLines f n = lineResults [] n := by
  induction n with
  | zero => simp [fileLines, lineResults]
  | succ n ih =>
    have e : f.readLine = (.err Err.ERROR_IO_EOF, f) := by simp [FileIo.readLine, h]
    rw [fileLines, e, lineResults_nil, ih]

theorem fileLines_spec (n : Nat) : ∀ (f : FileIo), f.eof = false → fileLines f n = lineResults (lines f.rest) n := by
  induction n with
  | zero => intro f _; simp [fileLines, lineResults]
  | succ n ih =>
    intro f he
    cases hr : f.rest with
    | nil =>
      have e : f.readLine = (.err Err.ERROR_IO_EOF, { f with eof := true }) := by simp [FileIo.readLine, he, hr]
      rw [fileLines, e]
      simp only [lines]
      rw [lineResults_nil, fileLines_eof _ _ rfl]
    | cons b bs =>
      have e0 : f.readLine = (.ok (FileIo.getline (b :: bs)).1,
          { rest := (FileIo.getline (b :: bs)).2.1, eof := (FileIo.getline (b :: bs)).2.2, line := f.line + 1 }) := by
        simp [FileIo.readLine, he, hr]
      rw [fileLines, e0]
      generalize ht : b :: bs = t at *
      have hne : t ≠ [] := by rw [← ht]; simp
      rcases split_nl t with hno | ⟨l, r', e, hno⟩
      · rw [getline_no_nl hno, lines_no_nl hno hne, lineResults_cons, fileLines_eof _ _ rfl]
      · rw [e, getline_nl hno, lines_append_nl hno, lineResults_cons, ih _ rfl]

/-! ### Character buffers -/
namespace CharBuf

/-- The state is sane. -/
structure WF (b : CharBuf) : Prop where
  len : b.len ≤ b.cap
  mem : b.mem.length = b.cap + b.head
  cap : b.cap < 2 ^ 32

theorem WF.remain {b : CharBuf} (h : b.WF) : b.remain = b.cap - b.len := sub32_le h.len h.cap

theorem append_spec {b : CharBuf} (h : b.WF) (d : List UInt8) :
    (b.len + d.length ≤ b.cap → ∃ b', b.append d = some b' ∧ b'.WF ∧ b'.cap = b.cap ∧ b'.head = b.head ∧
      b'.len = b.len + d.length ∧ b'.mem.take b'.len = b.mem.take b.len ++ d ∧
      b'.mem.drop b'.len = b.mem.drop (b.len + d.length)) ∧
    (b.cap < b.len + d.length → b.append d = none) := by
  have h1 := h.len
  have h2 := h.mem
  refine ⟨fun hf => ?_, fun hf => ?_⟩
  · refine ⟨_, if_pos ⟨by rw [h.remain]; omega, by omega⟩, ⟨hf, ?_, h.cap⟩, rfl, rfl, rfl, ?_, ?_⟩
    · simp; omega
    · show (b.mem.take b.len ++ d ++ b.mem.drop (b.len + d.length)).take (b.len + d.length) = _
      rw [List.take_left']; simp; omega
    · show (b.mem.take b.len ++ d ++ b.mem.drop (b.len + d.length)).drop (b.len + d.length) = _
      rw [List.drop_left']; simp; omega
  · exact if_neg (by rw [h.remain]; omega)

theorem appendAll_spec (ds : List (List UInt8)) {b : CharBuf} (h : b.WF) :
    (b.len + ds.flatten.length ≤ b.cap → ∃ b', b.appendAll ds = some b' ∧ b'.WF ∧ b'.cap = b.cap ∧ b'.head = b.head ∧
      b'.len = b.len + ds.flatten.length ∧ b'.mem.take b'.len = b.mem.take b.len ++ ds.flatten ∧
      b'.mem.drop b'.len = b.mem.drop (b.len + ds.flatten.length)) ∧
    (b.cap < b.len + ds.flatten.length → b.appendAll ds = none) := by
  induction ds generalizing b with
  | nil =>
    refine ⟨fun _ => ⟨b, rfl, h, rfl, rfl, by simp, by simp, by simp⟩, fun hf => ?_⟩
    have := h.len
    simp at hf; omega
  | cons d ds ih =>
    obtain ⟨a1, a2⟩ := append_spec h d
    simp only [List.flatten_cons, List.length_append]
    refine ⟨fun hf => ?_, fun hf => ?_⟩
    · obtain ⟨b1, e1, w1, c1, hd1, l1, t1, dr1⟩ := a1 (by omega)
      obtain ⟨b2, e2, w2, c2, hd2, l2, t2, dr2⟩ := (ih w1).1 (by omega)
      refine ⟨b2, by simp [appendAll, e1, e2], w2, by omega, by omega, by omega, ?_, ?_⟩
      · rw [t2, t1, List.append_assoc]
      · rw [dr2, ← List.drop_drop, dr1, List.drop_drop, Nat.add_assoc]
    · by_cases hf1 : b.len + d.length ≤ b.cap
      · obtain ⟨b1, e1, w1, c1, hd1, l1, t1, dr1⟩ := a1 hf1
        simp [appendAll, e1, (ih w1).2 (by omega)]
      · simp [appendAll, a2 (by omega)]

end CharBuf
end Sps
