import Verif.Lemmas.HttpConn
import Verif.Props.Names
/-! # A parser that reads the messages of the specification

`http_parser` is not part of the repository. This shows that what is asked of it can be had, and serves in examples. -/
namespace Sps.HttpConn
open Spec Spec.Http Spec.Names Spec.HttpConn

/-- The lines of a text. -/
def cut : (cur : List UInt8) → List UInt8 → List (List UInt8)
  | cur, [] => [cur]
  | cur, [b] => [cur ++ [b]]
  | cur, b :: c :: r => if b = CR ∧ c = LF then cur :: cut [] r else cut (cur ++ [b]) (c :: r)

def linesOf (t : List UInt8) : List (List UInt8) := (cut [] t).filter (· ≠ [])

def word (t : Text) : Text := t.takeWhile (· ≠ 32)
def behind (t : Text) : Text := (t.dropWhile (· ≠ 32)).drop 1
def fieldOf (l : Text) : Header := (l.takeWhile (· ≠ 58), (l.dropWhile (· ≠ 58)).drop 2)

def readReq (t : Text) : HttpReqIn :=
  match linesOf t with
  | [] => ⟨0, [], [], []⟩
  | f :: fs =>
    ⟨if (f.head?.map fun b => decide (65 ≤ b.toNat ∧ b.toNat ≤ 90)) = some true then t.length else 0, word f, word (behind f), fs.map fieldOf⟩

def readRsp (t : Text) : Nat × HttpHeadIn :=
  match linesOf t with
  | [] => (0, ⟨0, -1, false, []⟩)
  | f :: fs =>
    (if f.head? = some 72 then t.length else 0,
      { status := ((decValue 0 (word (behind f))).getD 0 : Nat),
        cl := match (fs.map fieldOf).find? (fun h => h.1 = ascii "Content-Length") with | none => -1 | some h => ((decValue 0 h.2).getD 0 : Nat),
        chunked := decide ((ascii "Transfer-Encoding", ascii "chunked") ∈ fs.map fieldOf), headers := fs.map fieldOf })

def readers : Parsers := { url := Names.readUrl, req := readReq, rsp := readRsp, reason := fun n => if n = 404 then ascii "Not Found" else if n = 403 then ascii "Forbidden" else ascii "OK" }

theorem cut_line : ∀ (l cur r : List UInt8), (∀ b ∈ l, b ≠ CR) → cut cur (l ++ CR :: LF :: r) = (cur ++ l) :: cut [] r
  | [], cur, r, _ => by simp [cut]
  | b :: l, cur, r, h => by
    have hb : b ≠ CR := h b (List.mem_cons_self ..)
    have ih := cut_line l (cur ++ [b]) r (fun x hx => h x (List.mem_cons_of_mem _ hx))
    cases l with
    | nil =>
      rw [List.cons_append, List.nil_append, show cut cur (b :: CR :: LF :: r) = cut (cur ++ [b]) (CR :: LF :: r) by rw [cut]; exact if_neg (fun h => hb h.1)]
      rw [List.nil_append] at ih
      rw [ih]
      simp
    | cons c l =>
      rw [List.cons_append, List.cons_append, show cut cur (b :: c :: (l ++ CR :: LF :: r)) = cut (cur ++ [b]) (c :: (l ++ CR :: LF :: r)) by
        rw [cut]; exact if_neg (fun h => hb h.1)]
      rw [List.cons_append] at ih
      rw [ih]
      simp

theorem cut_lines (e : List UInt8) : ∀ ls : List (List UInt8), (∀ l ∈ ls, lineOk l) → cut [] (ls.flatMap (· ++ crlf) ++ e) = ls ++ cut [] e
  | [], _ => rfl
  | l :: ls, h => by
    have h1 := h l (List.mem_cons_self ..)
    have e1 : (l :: ls).flatMap (· ++ crlf) ++ e = l ++ CR :: LF :: (ls.flatMap (· ++ crlf) ++ e) := by simp [crlf]
    rw [e1, cut_line l [] _ (fun b hb => (h1.2 b hb).1), cut_lines e ls (fun x hx => h x (List.mem_cons_of_mem _ hx))]
    rfl

theorem linesOf_head (ls : List (List UInt8)) (h : ∀ l ∈ ls, lineOk l) : linesOf (head ls) = ls := by
  unfold linesOf head
  rw [cut_lines crlf ls h, show cut [] crlf = [[], []] by decide +kernel, List.filter_append]
  rw [List.filter_eq_self.2 (fun l hl => by simpa using (h l hl).1)]
  simp

theorem takeWhile_ne (s : UInt8) : ∀ (a r : List UInt8), s ∉ a → (a ++ s :: r).takeWhile (· ≠ s) = a ∧ (a ++ s :: r).dropWhile (· ≠ s) = s :: r
  | [], r, _ => by simp
  | b :: a, r, h => by
    have h1 : b ≠ s := fun e => h (by simp [e])
    have := takeWhile_ne s a r (fun e => h (List.mem_cons_of_mem _ e))
    simp only [List.cons_append, List.takeWhile_cons, List.dropWhile_cons, ne_eq, h1, not_false_eq_true, decide_true, if_true]
    simp only [ne_eq] at this
    exact ⟨by rw [this.1], this.2⟩

theorem fieldOf_line {f : Header} (h : ∀ b ∈ f.1, b ≠ 58) : fieldOf (line f) = f := by
  have e : line f = f.1 ++ 58 :: (32 :: f.2) := by simp [line, show ascii ": " = [58, 32] by decide +kernel]
  have := takeWhile_ne 58 f.1 (32 :: f.2) (fun hm => h _ hm rfl)
  unfold fieldOf
  rw [e, this.1, this.2]
  rfl

theorem plain_name {f : Header} (h : plain f) : ∀ b ∈ f.1, b ≠ 58 := by
  intro b hb
  rcases h.1.2 b hb with h | h | rfl
  · rintro rfl; unfold letter at h; revert h; decide
  · rintro rfl; revert h; decide
  · decide

theorem fields_map (fs : List Header) (h : ∀ f ∈ fs, ∀ b ∈ f.1, b ≠ 58) : (fs.map line).map fieldOf = fs := by
  rw [List.map_map]
  have : ∀ f ∈ fs, (fieldOf ∘ line) f = f := fun f hf => fieldOf_line (h f hf)
  rw [List.map_congr_left this, List.map_id']

theorem graph_ne {b : UInt8} (h : graph b) : b ≠ 32 := by rintro rfl; unfold graph at h; revert h; decide

theorem readReq_ask {a : Ask} (ok : a.Ok) : readReq a.text = { count := a.text.length, method := a.method, target := a.target, headers := a.fields } := by
  have hl : ∀ l ∈ a.first :: a.fields.map line, lineOk l := by
    intro l hl
    rcases List.mem_cons.1 hl with rfl | hl
    · exact first_line ok
    · obtain ⟨f, hf, rfl⟩ := List.mem_map.1 hl
      unfold Ask.fields at hf
      rcases List.mem_append.1 hf with hf | hf
      · exact plain_line (ok.fields f (List.mem_append_left _ hf))
      · rcases List.mem_cons.1 hf with rfl | hf
        · exact host_line ok
        · exact plain_line (ok.fields f (List.mem_append_right _ hf))
  have hn : ∀ f ∈ a.fields, ∀ b ∈ f.1, b ≠ 58 := by
    intro f hf
    unfold Ask.fields at hf
    rcases List.mem_append.1 hf with hf | hf
    · exact plain_name (ok.fields f (List.mem_append_left _ hf))
    · rcases List.mem_cons.1 hf with rfl | hf
      · show ∀ b ∈ ascii "Host", b ≠ 58; decide +kernel
      · exact plain_name (ok.fields f (List.mem_append_right _ hf))
  have hm := method_chars ok
  have ef : a.first = a.method ++ 32 :: (a.target ++ 32 :: ascii "HTTP/1.1") := by
    have h1 : ascii " HTTP/1.1" = 32 :: ascii "HTTP/1.1" := by decide +kernel
    have h2 : ascii " " = [32] := by decide +kernel
    simp [Ask.first, h1, h2]
  have w1 := takeWhile_ne 32 a.method (a.target ++ 32 :: ascii "HTTP/1.1") (fun h => graph_ne (hm.2 _ h) rfl)
  have w2 := takeWhile_ne 32 a.target (ascii "HTTP/1.1") (fun h => graph_ne (target_chars ok _ h) rfl)
  have hc : (a.first.head?.map fun b => decide (65 ≤ b.toNat ∧ b.toNat ≤ 90)) = some true := by
    have : ∀ m ∈ [ascii "GET", ascii "POST", ascii "PUT", ascii "DELETE", ascii "OPTIONS"], (m.head?.map fun b => decide (65 ≤ b.toNat ∧ b.toNat ≤ 90)) = some true := by
      decide +kernel
    have h := this _ ok.method
    rw [ef]
    cases hme : a.method with
    | nil => exact absurd hme hm.1
    | cons b m => rw [hme] at h; simpa using h
  unfold readReq Ask.text
  rw [linesOf_head _ hl]
  simp only [hc, if_true, fields_map _ hn]
  unfold word behind
  rw [ef, w1.1, w1.2, List.drop_one, List.tail_cons, w2.1]

theorem readRsp_reply {r : Reply} (ok : r.Ok) : readRsp r.head = (r.head.length, r.found) := by
  have hdc : ∀ b ∈ r.digits, 48 ≤ b.toNat ∧ b.toNat ≤ 57 := dec_chars _ _ _ ok.digits.2
  have hbf : lineOk (line r.body.field) ∧ ∀ b ∈ r.body.field.1, b ≠ 58 := by
    cases hb : r.body with
    | coded cs z => constructor <;> simp only [Body.field, line] <;> decide +kernel
    | sized ds bo =>
      have hbo := ok.body
      rw [hb] at hbo
      refine ⟨lineOk_of ?_ ?_, ?_⟩
      · simp only [Body.field, line]
        intro h0
        simp only [List.append_eq_nil_iff] at h0
        exact absurd h0.1.2 (by decide +kernel)
      · intro b hb
        simp only [Body.field, line, List.mem_append] at hb
        have h1 : ∀ b ∈ ascii "Content-Length", graph b ∨ b = 32 := by unfold graph; decide +kernel
        have h2 : ∀ b ∈ ascii ": ", graph b ∨ b = 32 := by unfold graph; decide +kernel
        rcases hb with (hb | hb) | hb
        · exact h1 b hb
        · exact h2 b hb
        · have := dec_chars _ _ _ hbo.2.2.2 b hb
          left; unfold graph; omega
      · simp only [Body.field]; decide +kernel
  have hl : ∀ l ∈ r.first :: r.fields.map line, lineOk l := by
    intro l hl
    rcases List.mem_cons.1 hl with rfl | hl
    · refine lineOk_of ?_ ?_
      · unfold Reply.first
        intro h0
        simp only [List.append_eq_nil_iff] at h0
        exact absurd h0.1.2 (by decide +kernel)
      · intro b hb
        unfold Reply.first at hb
        simp only [List.mem_append] at hb
        have h1 : ∀ b ∈ ascii "HTTP/1.1 ", graph b ∨ b = 32 := by unfold graph; decide +kernel
        have h2 : ∀ b ∈ ascii " ", graph b ∨ b = 32 := by unfold graph; decide +kernel
        rcases hb with ((hb | hb) | hb) | hb
        · exact h1 b hb
        · have := hdc b hb
          left; unfold graph; omega
        · exact h2 b hb
        · exact ok.phrase.2.1 b hb
    · obtain ⟨f, hf, rfl⟩ := List.mem_map.1 hl
      unfold Reply.fields at hf
      rcases List.mem_append.1 hf with hf | hf
      · exact plain_line (ok.fields f (List.mem_append_left _ hf))
      · rcases List.mem_cons.1 hf with rfl | hf
        · exact hbf.1
        · exact plain_line (ok.fields f (List.mem_append_right _ hf))
  have hn : ∀ f ∈ r.fields, ∀ b ∈ f.1, b ≠ 58 := by
    intro f hf
    unfold Reply.fields at hf
    rcases List.mem_append.1 hf with hf | hf
    · exact plain_name (ok.fields f (List.mem_append_left _ hf))
    · rcases List.mem_cons.1 hf with rfl | hf
      · exact hbf.2
      · exact plain_name (ok.fields f (List.mem_append_right _ hf))
  have hnot : ∀ f ∈ r.before ++ r.after, f.1 ≠ ascii "Content-Length" ∧ f.1 ≠ ascii "Transfer-Encoding" := by
    intro f hf
    have h := (ok.fields f hf).2.2
    constructor <;> (intro e; rw [e] at h; exact h (by decide +kernel))
  have ef : r.first = ascii "HTTP/1.1" ++ 32 :: (r.digits ++ 32 :: r.phrase) := by
    have h1 : ascii "HTTP/1.1 " = ascii "HTTP/1.1" ++ [32] := by decide +kernel
    have h2 : ascii " " = [32] := by decide +kernel
    simp [Reply.first, h1, h2]
  have w1 := takeWhile_ne 32 (ascii "HTTP/1.1") (r.digits ++ 32 :: r.phrase) (by decide +kernel)
  have w2 := takeWhile_ne 32 r.digits r.phrase (fun h => absurd (hdc _ h) (by decide))
  have hst : word (behind r.first) = r.digits := by
    unfold word behind
    rw [ef, w1.2, List.drop_one, List.tail_cons, w2.1]
  have hh : r.first.head? = some 72 := by rw [ef]; rfl
  unfold readRsp Reply.head
  rw [linesOf_head _ hl]
  simp only [hh, if_true, fields_map _ hn, hst, ok.digits.2, Option.getD_some]
  refine Prod.ext rfl ?_
  unfold Reply.found
  have hfind : ∀ (g : Header), g.1 ≠ ascii "Content-Length" → (r.before ++ g :: r.after).find? (fun h => h.1 = ascii "Content-Length") = none := by
    intro g hg
    rw [List.find?_eq_none]
    intro f hf
    rcases List.mem_append.1 hf with hf | hf
    · simpa using (hnot f (List.mem_append_left _ hf)).1
    · rcases List.mem_cons.1 hf with rfl | hf
      · simpa using hg
      · simpa using (hnot f (List.mem_append_right _ hf)).1
  cases hb : r.body with
  | coded cs z =>
    have hfs : r.fields = r.before ++ (ascii "Transfer-Encoding", ascii "chunked") :: r.after := by unfold Reply.fields; rw [hb]; rfl
    have h1 := hfind (ascii "Transfer-Encoding", ascii "chunked") (by decide +kernel)
    rw [← hfs] at h1
    have h2 : (ascii "Transfer-Encoding", ascii "chunked") ∈ r.fields := by rw [hfs]; simp
    simp only [h1, h2, decide_true]
  | sized ds bo =>
    have hbo := ok.body
    rw [hb] at hbo
    have hfs : r.fields = r.before ++ (ascii "Content-Length", ds) :: r.after := by unfold Reply.fields; rw [hb]; rfl
    have h1 : r.fields.find? (fun h => h.1 = ascii "Content-Length") = some (ascii "Content-Length", ds) := by
      rw [hfs, List.find?_append, List.find?_eq_none.2 (fun f hf => by simpa using (hnot f (List.mem_append_left _ hf)).1)]
      simp
    have h2 : (ascii "Transfer-Encoding", ascii "chunked") ∉ r.fields := by
      rw [hfs]
      intro hm
      rcases List.mem_append.1 hm with hm | hm
      · exact (hnot _ (List.mem_append_left _ hm)).2 rfl
      · rcases List.mem_cons.1 hm with hm | hm
        · exact absurd (congrArg Prod.fst hm) (by show ascii "Transfer-Encoding" ≠ ascii "Content-Length"; decide +kernel)
        · exact (hnot _ (List.mem_append_right _ hm)).2 rfl
    simp only [h1, h2, decide_false, hbo.2.2.2, Option.getD_some]

theorem reads_readers : Reads readers := by
  refine ⟨Names.readsUrls_readUrl, fun a ok => readReq_ask ok, fun r ok => readRsp_reply ok, fun n b hb => ?_⟩
  have h1 : ∀ b ∈ ascii "Not Found", b ≠ CR ∧ b ≠ LF := by decide +kernel
  have h2 : ∀ b ∈ ascii "Forbidden", b ≠ CR ∧ b ≠ LF := by decide +kernel
  have h3 : ∀ b ∈ ascii "OK", b ≠ CR ∧ b ≠ LF := by decide +kernel
  simp only [readers] at hb
  split at hb
  · exact h1 b hb
  · split at hb
    · exact h2 b hb
    · exact h3 b hb

end Sps.HttpConn
