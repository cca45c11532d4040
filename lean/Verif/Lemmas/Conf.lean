import Verif.Spec.Conf
/-! # Configuration files: lines -/
namespace Sps.Conf
open Spec.Conf

theorem isSpace_iff (b : UInt8) : Text.isSpace b = true ↔ space b := by
  have h : ∀ n : Fin 256, (Text.isSpace (UInt8.ofNat n.val) = true ↔ UInt8.ofNat n.val ∈ ([9, 10, 11, 12, 13, 32] : List UInt8)) := by
    decide +kernel
  have := h ⟨b.toNat, b.toNat_lt⟩
  simpa [UInt8.ofNat_toNat, space] using this

theorem isSpace_false {b : UInt8} (h : ¬space b) : Text.isSpace b = false := by
  rw [← isSpace_iff] at h
  simpa using h

/-! ## Words -/

theorem wordsAux_space (sp r : Text) (h : ∀ b ∈ sp, space b) : Text.wordsAux [] (sp ++ r) = Text.wordsAux [] r := by
  induction sp with
  | nil => rfl
  | cons b sp ih =>
    have hb : Text.isSpace b = true := (isSpace_iff b).2 (h b (List.mem_cons_self ..))
    rw [List.cons_append, Text.wordsAux, if_pos hb]
    exact ih fun x hx => h x (List.mem_cons_of_mem _ hx)

theorem wordsAux_word (w r acc : Text) (h : ∀ b ∈ w, ¬space b) : Text.wordsAux acc (w ++ r) = Text.wordsAux (w.reverse ++ acc) r := by
  induction w generalizing acc with
  | nil => rfl
  | cons b w ih =>
    have hb : Text.isSpace b = false := isSpace_false (h b (List.mem_cons_self ..))
    have := ih (b :: acc) fun x hx => h x (List.mem_cons_of_mem _ hx)
    rw [List.cons_append, List.reverse_cons, List.append_assoc, List.singleton_append, ← this]
    cases acc with
    | nil => rw [Text.wordsAux, if_neg (by simp [hb])]
    | cons => rw [Text.wordsAux, if_neg (by simp [hb])]

theorem wordsAux_end (acc r : Text) (ha : acc ≠ []) (h : ∀ b, r.head? = some b → space b) :
    Text.wordsAux acc r = acc.reverse :: Text.wordsAux [] r := by
  cases acc with
  | nil => exact absurd rfl ha
  | cons a acc =>
    cases r with
    | nil => rfl
    | cons b r =>
      have hb : Text.isSpace b = true := (isSpace_iff b).2 (h b rfl)
      rw [Text.wordsAux, if_pos hb, Text.wordsAux, if_pos hb]

theorem words_of (line : Text) (ws : List Text) (h : IsWords line ws) : Text.words line = ws := by
  induction h with
  | none sp hsp =>
    have := wordsAux_space sp [] hsp
    rw [List.append_nil] at this
    rw [Text.words, this]
    rfl
  | word sp w rest ws hsp hw0 hw hr _ ih =>
    rw [Text.words, List.append_assoc, wordsAux_space _ _ hsp, wordsAux_word _ _ _ hw, List.append_nil,
      wordsAux_end _ _ (by simpa using hw0) hr, List.reverse_reverse]
    rw [Text.words] at ih
    rw [ih]

theorem isWords_space {r : Text} {ws : List Text} (b : UInt8) (hb : Spec.Conf.space b) (h : IsWords r ws) : IsWords (b :: r) ws := by
  cases h with
  | none _ h => exact .none _ (by simpa using ⟨hb, h⟩)
  | word sp w rest ws h1 h2 h3 h4 h5 =>
    exact .word (b :: sp) w rest ws (by simpa using ⟨hb, h1⟩) h2 h3 h4 h5

theorem isWords_aux (r : Text) : IsWords r (Text.wordsAux [] r) ∧
    ∀ acc : Text, acc ≠ [] → (∀ b ∈ acc, ¬space b) → IsWords (acc.reverse ++ r) (Text.wordsAux acc r) := by
  induction r with
  | nil =>
    refine ⟨.none [] (by simp), fun acc ha hs => ?_⟩
    rw [wordsAux_end acc [] ha (by simp)]
    have := IsWords.word [] acc.reverse [] [] (by simp) (by simpa using ha) (by simpa using hs) (by simp) (.none [] (by simp))
    simpa [Text.wordsAux] using this
  | cons b r ih =>
    by_cases hb : space b
    · have hb' := (isSpace_iff b).2 hb
      have h0 : Text.wordsAux [] (b :: r) = Text.wordsAux [] r := by rw [Text.wordsAux, if_pos hb']
      refine ⟨h0 ▸ isWords_space b hb ih.1, fun acc ha hs => ?_⟩
      rw [wordsAux_end acc _ ha (by simpa using hb)]
      have := IsWords.word [] acc.reverse (b :: r) _ (by simp) (by simpa using ha) (by simpa using hs)
        (by simpa using hb) (h0 ▸ isWords_space b hb ih.1)
      simpa using this
    · have h1 : ∀ acc, Text.wordsAux acc (b :: r) = Text.wordsAux (b :: acc) r := fun acc =>
        wordsAux_word [b] r acc (by simpa using hb)
      refine ⟨?_, fun acc ha hs => ?_⟩
      · rw [h1]
        exact ih.2 [b] (by simp) (by simpa using hb)
      · rw [h1]
        have := ih.2 (b :: acc) (by simp) (by simpa using ⟨hb, hs⟩)
        simpa using this

theorem isWords_words (line : Text) : IsWords line (Text.words line) := (isWords_aux line).1

theorem words_iff (line : Text) (ws : List Text) : Text.words line = ws ↔ IsWords line ws :=
  ⟨fun h => h ▸ isWords_words line, words_of line ws⟩

theorem isWords_ne {line : Text} {ws : List Text} (h : IsWords line ws) : ∀ w ∈ ws, w ≠ [] := by
  induction h with
  | none => simp
  | word sp w rest ws _ hw _ _ _ ih =>
    intro x hx
    rcases List.mem_cons.1 hx with rfl | hx
    · exact hw
    · exact ih x hx

/-! ## Lines -/

theorem linesAux_line (l r acc : Text) (h : ∀ b ∈ l, b ≠ 10) : Text.linesAux acc (l ++ r) = Text.linesAux (l.reverse ++ acc) r := by
  induction l generalizing acc with
  | nil => rfl
  | cons b l ih =>
    have hb : b ≠ 10 := h b (List.mem_cons_self ..)
    have := ih (b :: acc) fun x hx => h x (List.mem_cons_of_mem _ hx)
    rw [List.cons_append, List.reverse_cons, List.append_assoc, List.singleton_append, ← this]
    cases acc with
    | nil => rw [Text.linesAux, if_neg hb]
    | cons => rw [Text.linesAux, if_neg hb]

theorem linesAux_lf (acc r : Text) : Text.linesAux acc (10 :: r) = acc.reverse :: Text.linesAux [] r := by
  cases acc <;> rw [Text.linesAux, if_pos rfl]

theorem linesAux_nil (acc : Text) (h : acc ≠ []) : Text.linesAux acc [] = [acc.reverse] := by
  cases acc with
  | nil => exact absurd rfl h
  | cons => rfl

theorem lines_of (file : Text) (ls : List Text) (h : IsLines file ls) : Text.lines file = ls := by
  induction h with
  | none => rfl
  | last l hl h =>
    have := linesAux_line l [] [] h
    rw [List.append_nil, List.append_nil] at this
    rw [Text.lines, this, linesAux_nil _ (by simpa using hl), List.reverse_reverse]
  | line l rest ls h _ ih =>
    rw [Text.lines, linesAux_line l _ [] h, List.append_nil, linesAux_lf, List.reverse_reverse]
    rw [Text.lines] at ih
    rw [ih]

theorem isLines_aux (r : Text) : IsLines r (Text.linesAux [] r) ∧
    ∀ acc : Text, acc ≠ [] → (∀ b ∈ acc, b ≠ 10) → IsLines (acc.reverse ++ r) (Text.linesAux acc r) := by
  induction r with
  | nil =>
    refine ⟨.none, fun acc ha hs => ?_⟩
    rw [linesAux_nil _ ha, List.append_nil]
    exact .last _ (by simpa using ha) (by simpa using hs)
  | cons b r ih =>
    by_cases hb : b = 10
    · subst hb
      refine ⟨linesAux_lf [] r ▸ IsLines.line [] r _ (by simp) ih.1, fun acc _ hs => ?_⟩
      rw [linesAux_lf]
      exact .line _ _ _ (by simpa using hs) ih.1
    · have h1 : ∀ acc, Text.linesAux acc (b :: r) = Text.linesAux (b :: acc) r := fun acc =>
        linesAux_line [b] r acc (by simpa using hb)
      refine ⟨?_, fun acc ha hs => ?_⟩
      · rw [h1]
        exact ih.2 [b] (by simp) (by simpa using hb)
      · rw [h1]
        have := ih.2 (b :: acc) (by simp) (by simpa using ⟨hb, hs⟩)
        simpa using this

theorem isLines_lines (file : Text) : IsLines file (Text.lines file) := (isLines_aux file).1

theorem lines_iff (file : Text) (ls : List Text) : Text.lines file = ls ↔ IsLines file ls :=
  ⟨fun h => h ▸ isLines_lines file, lines_of file ls⟩

/-! ## What a line says -/

theorem mark_none {t : Text} : mark t = none ↔ ¬final t := by
  unfold mark final
  cases h : t.getLast? with
  | none => simp
  | some c =>
    by_cases h1 : c = 59
    · simp [h1]
    · by_cases h2 : c = 123
      · simp [h2]
      · by_cases h3 : c = 125
        · simp [h3]
        · simp [h1, h2, h3]

theorem snoc_of_getLast? {t : Text} {c : UInt8} (h : t.getLast? = some c) : t = t.dropLast ++ [c] := by
  obtain ⟨hn, hc⟩ := List.getLast?_eq_some_iff.1 h
  subst hc
  simp

theorem mark_item {t : Text} : mark t = some .item ↔ ∃ w, t = w ++ [59] := by
  unfold mark
  constructor
  · intro h
    split at h
    · rename_i h1
      exact ⟨t.dropLast, snoc_of_getLast? h1⟩
    · split at h
      · cases h
      · split at h <;> cases h
  · rintro ⟨w, rfl⟩
    simp

theorem mark_start {t : Text} : mark t = some .start ↔ ∃ w, t = w ++ [123] := by
  unfold mark
  constructor
  · intro h
    split at h
    · cases h
    · split at h
      · rename_i h1
        exact ⟨t.dropLast, snoc_of_getLast? h1⟩
      · split at h <;> cases h
  · rintro ⟨w, rfl⟩
    simp

theorem mark_close {t : Text} : mark t = some .close ↔ ∃ w, t = w ++ [125] := by
  unfold mark
  constructor
  · intro h
    split at h
    · cases h
    · split at h
      · cases h
      · split at h
        · rename_i h1
          exact ⟨t.dropLast, snoc_of_getLast? h1⟩
        · cases h
  · rintro ⟨w, rfl⟩
    simp

theorem split_plain (ts args : List Text) (h : ∀ x ∈ ts, ¬final x) : split args none ts = some (args ++ ts, none) := by
  induction ts generalizing args with
  | nil => simp [split]
  | cons t ts ih =>
    have ht : mark t = none := mark_none.2 (h t (List.mem_cons_self ..))
    rw [split, ht, ih _ fun x hx => h x (List.mem_cons_of_mem _ hx)]
    simp

theorem split_final (pre post args : List Text) (e : Text) (m : Mark) (h : ∀ x ∈ pre, ¬final x) (he : mark e = some m) :
    split args none (pre ++ e :: post) = (match post with
      | [] => some (args ++ pre ++ [e], some m)
      | p :: _ => if p.head? = some 35 then some (args ++ pre ++ [e], some m) else none) := by
  induction pre generalizing args with
  | nil =>
    rw [List.nil_append, split, he]
    cases post with
    | nil => simp [split]
    | cons p post => simp [split]
  | cons t ts ih =>
    have ht : mark t = none := mark_none.2 (h t (List.mem_cons_self ..))
    rw [List.cons_append, split, ht, ih _ fun x hx => h x (List.mem_cons_of_mem _ hx)]
    simp

theorem split_trail (pre post args : List Text) (e : Text) (m : Mark) (h : ∀ x ∈ pre, ¬final x) (he : mark e = some m)
    (hp : trail post) : split args none (pre ++ e :: post) = some (args ++ pre ++ [e], some m) := by
  rw [split_final _ _ _ _ _ h he]
  cases post with
  | nil => rfl
  | cons p post => exact if_pos (hp p rfl)

/-- Words before the first final one. -/
theorem final_cases (ts : List Text) : (∀ x ∈ ts, ¬final x) ∨
    ∃ pre e post m, ts = pre ++ e :: post ∧ (∀ x ∈ pre, ¬final x) ∧ mark e = some m := by
  induction ts with
  | nil => left; simp
  | cons t ts ih =>
    cases ht : mark t with
    | some m => exact .inr ⟨[], t, ts, m, rfl, by simp, ht⟩
    | none =>
      rcases ih with ih | ⟨pre, e, post, m, rfl, h1, h2⟩
      · left
        simpa using ⟨mark_none.1 ht, ih⟩
      · exact .inr ⟨t :: pre, e, post, m, rfl, by simpa using ⟨mark_none.1 ht, h1⟩, h2⟩

theorem foldl_addArg (ws : List Text) (arg : Text) (ha : arg ≠ []) : ws.foldl addArg arg = join (arg :: ws) := by
  induction ws generalizing arg with
  | nil => rfl
  | cons w ws ih =>
    have : addArg arg w = arg ++ (32 :: w) := by
      unfold addArg
      rw [if_neg (by simpa using ha)]
      rfl
    rw [List.foldl_cons, this, ih _ (by simp)]
    cases ws with
    | nil => rfl
    | cons v ws => simp [join]

theorem foldl_addArg_nil (ws : List Text) (h : ∀ w ∈ ws, w ≠ []) : ws.foldl addArg [] = join ws := by
  cases ws with
  | nil => rfl
  | cons w ws =>
    have : addArg [] w = w := rfl
    rw [List.foldl_cons, this]
    exact foldl_addArg ws w (h w (List.mem_cons_self ..))

theorem join_snoc (ws : List Text) (w : Text) : join (ws ++ [w]) = join ws ++ (if ws = [] then [] else [32]) ++ w := by
  induction ws with
  | nil => rfl
  | cons v ws ih =>
    cases ws with
    | nil => simp [join]
    | cons u ws =>
      rw [List.cons_append, List.cons_append, join, ← List.cons_append, ih, join]
      simp

theorem join_eq_nil (ws : List Text) (h : ∀ w ∈ ws, w ≠ []) : join ws = [] ↔ ws = [] := by
  cases ws with
  | nil => simp [join]
  | cons w ws =>
    have := h w (List.mem_cons_self ..)
    cases ws <;> simp [join, this]

/-- `parse` behind the split, for a directive or a block. -/
def verdict (cmd : Text) (more : List Text) (m : Mark) : Option Line :=
  match more.getLast? with
  | none => if m = .close then some .close else none
  | some last =>
    if cmd = [123] ∨ cmd = [125] then none
    else
      let arg := more.dropLast.foldl addArg []
      match m with
      | .start => some (.start cmd arg)
      | .close => some .close
      | .item => some (.item cmd (if last ≠ [59] then arg ++ (if arg.isEmpty then [] else [32]) ++ last.dropLast else arg))

theorem parse_of {line : Text} {ws : List Text} (h : Text.words line = ws) : parse line = (match split [] none ws with
    | none => none
    | some ([], _) => some .empty
    | some (cmd :: more, found) => if cmd.head? = some 35 then some .comment else match found with
      | none => none
      | some m => verdict cmd more m) := by
  subst h
  unfold parse verdict
  rcases split [] none (Text.words line) with _ | ⟨_ | ⟨cmd, more⟩, found⟩
  · rfl
  · rfl
  · cases found <;> rfl

theorem not_final_brace {cmd : Text} (h : ¬final cmd) : ¬(cmd = [123] ∨ cmd = [125]) := by
  rintro (rfl | rfl)
  · exact h ⟨123, rfl, by decide⟩
  · exact h ⟨125, rfl, by decide⟩

theorem verdict_item (cmd w : Text) (ws : List Text) (hc : ¬final cmd) (hws : ∀ x ∈ ws, x ≠ []) :
    verdict cmd (ws ++ [w ++ [59]]) .item = some (.item cmd (join (if w = [] then ws else ws ++ [w]))) := by
  unfold verdict
  rw [List.getLast?_concat, List.dropLast_concat]
  simp only [not_final_brace hc, if_false, foldl_addArg_nil ws hws, List.dropLast_concat]
  by_cases hw : w = []
  · subst hw
    simp
  · rw [if_pos (by simpa using hw), if_neg hw, join_snoc]
    by_cases hw' : ws = []
    · subst hw'
      rfl
    · have : (join ws).isEmpty = false := by
        rw [← Bool.not_eq_true, List.isEmpty_iff, join_eq_nil ws hws]
        exact hw'
      rw [this, if_neg hw']
      rfl

theorem verdict_start (cmd e : Text) (ws : List Text) (hc : ¬final cmd) (hws : ∀ x ∈ ws, x ≠ []) :
    verdict cmd (ws ++ [e]) .start = some (.start cmd (join ws)) := by
  unfold verdict
  rw [List.getLast?_concat, List.dropLast_concat]
  simp only [not_final_brace hc, if_false, foldl_addArg_nil ws hws]

theorem verdict_close (cmd e : Text) (ws : List Text) (hc : ¬final cmd) : verdict cmd (ws ++ [e]) .close = some .close := by
  unfold verdict
  rw [List.getLast?_concat]
  simp only [not_final_brace hc, if_false]

theorem final_of_mark {e : Text} {m : Mark} (h : mark e = some m) : final e := by
  refine Decidable.byContradiction (dec := Classical.propDecidable _) fun hf => ?_
  rw [mark_none.2 hf] at h
  cases h

theorem parse_says {line : Text} {x : Line} (h : LineSays line x) : parse line = some x := by
  obtain ⟨ws, hw, hs⟩ := h
  have hne := isWords_ne hw
  rw [parse_of (words_of _ _ hw)]
  cases hs with
  | empty => rfl
  | comment w ws hh hf =>
    rw [split_plain _ _ hf]
    exact if_pos hh
  | commentFinal ws post e hh hf he ht =>
    obtain ⟨m, hm⟩ : ∃ m, mark e = some m := by
      cases hm : mark e with
      | none => exact absurd he (mark_none.1 hm)
      | some m => exact ⟨m, rfl⟩
    rw [split_trail _ _ _ _ _ hf hm ht]
    cases ws with
    | nil => exact if_pos (hh e rfl)
    | cons w ws => exact if_pos (hh w rfl)
  | item cmd w ws post hh hf ht =>
    have hm : mark (w ++ [59]) = some .item := mark_item.2 ⟨w, rfl⟩
    rw [← List.cons_append, split_trail _ _ _ _ _ hf hm ht]
    refine (if_neg hh).trans ?_
    exact verdict_item _ _ _ (hf cmd (by simp)) fun x hx => hne x (by simp [hx])
  | start cmd w ws post hh hf ht =>
    have hm : mark (w ++ [123]) = some .start := mark_start.2 ⟨w, rfl⟩
    rw [← List.cons_append, split_trail _ _ _ _ _ hf hm ht]
    refine (if_neg hh).trans ?_
    exact verdict_start _ _ _ (hf cmd (by simp)) fun x hx => hne x (by simp [hx])
  | close w ws post hh hf ht =>
    have hm : mark (w ++ [125]) = some .close := mark_close.2 ⟨w, rfl⟩
    rw [split_trail _ _ _ _ _ hf hm ht]
    cases ws with
    | nil => exact (if_neg (hh _ rfl)).trans rfl
    | cons cmd ws =>
      refine (if_neg (hh cmd rfl)).trans ?_
      exact verdict_close _ _ _ (hf cmd (by simp))

theorem says_parse {line : Text} {x : Line} (h : parse line = some x) : LineSays line x := by
  have hw := isWords_words line
  refine ⟨Text.words line, hw, ?_⟩
  have hne := isWords_ne hw
  generalize hws : Text.words line = ws at *
  rw [parse_of hws] at h
  rcases final_cases ws with hf | ⟨pre, e, post, m, rfl, hf, hm⟩
  · rw [split_plain _ _ hf] at h
    cases ws with
    | nil => cases h; exact .empty
    | cons cmd more =>
      by_cases hc : cmd.head? = some 35
      · cases (if_pos hc).symm.trans h
        exact .comment _ _ hc hf
      · cases (if_neg hc).symm.trans h
  · by_cases ht : trail post
    · rw [split_trail _ _ _ _ _ hf hm ht] at h
      cases pre with
      | nil =>
        by_cases hc : e.head? = some 35
        · cases (if_pos hc).symm.trans h
          exact .commentFinal [] post e (by simpa [pound] using hc) hf (final_of_mark hm) ht
        · have h' := (if_neg hc).symm.trans h
          cases m with
          | close =>
            cases h'
            obtain ⟨w, rfl⟩ := mark_close.1 hm
            refine .close w [] post ?_ hf ht
            intro x hx
            cases hx
            exact hc
          | item => cases h'
          | start => cases h'
      | cons cmd ws =>
        by_cases hc : cmd.head? = some 35
        · cases (if_pos hc).symm.trans h
          exact .commentFinal (cmd :: ws) post e (by simpa [pound] using hc) hf (final_of_mark hm) ht
        · have h' := (if_neg hc).symm.trans h
          have hcf : ¬final cmd := hf cmd (by simp)
          have hn : ∀ x ∈ ws, x ≠ [] := fun x hx => hne x (by simp [hx])
          cases m with
          | close =>
            cases (verdict_close cmd e ws hcf).symm.trans h'
            obtain ⟨w, rfl⟩ := mark_close.1 hm
            exact .close w (cmd :: ws) post (by simpa [pound] using hc) hf ht
          | item =>
            obtain ⟨w, rfl⟩ := mark_item.1 hm
            have h2 := verdict_item cmd w ws hcf hn
            cases h2.symm.trans h'
            exact .item cmd w ws post hc hf ht
          | start =>
            obtain ⟨w, rfl⟩ := mark_start.1 hm
            have h2 := verdict_start cmd (w ++ [123]) ws hcf hn
            cases h2.symm.trans h'
            exact .start cmd w ws post hc hf ht
    · rw [split_final _ _ _ _ _ hf hm] at h
      cases post with
      | nil => exact absurd (by simp [trail]) ht
      | cons p post =>
        have hp : ¬p.head? = some 35 := fun hp => ht (by simpa [trail, pound] using hp)
        simp only [hp, if_false] at h
        cases h

theorem parse_iff (line : Text) (x : Line) : parse line = some x ↔ LineSays line x := ⟨says_parse, parse_says⟩

end Sps.Conf
