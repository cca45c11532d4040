import Verif.Model.Names
import Verif.Spec.Names
import Verif.Lemmas.Url
/-! # Lemmas about names of streams -/
namespace Sps.Names
open Spec Spec.Names

theorem parseUrl_parts {parser : Text → Option UrlFields} (hp : ReadsUrls parser) {p : Parts} (ok : p.Ok) (hs : p.schema ≠ ascii "file") (u : Url) :
    ∃ r, parseUrl parser u p.text = some r ∧ r.host = p.host ∧ r.path = p.path ∧ r.ext = (Text.afterLast 46 p.path).getD u.ext ∧
      (u.method ≠ [] → r.method = u.method) := by
  unfold parseUrl
  rw [hp p ok, Option.bind_some]
  have hs' : ¬ p.fields.schema.getD u.schema = ascii "file" := hs
  unfold Url.parse
  simp only [if_neg hs']
  exact ⟨_, rfl, rfl, rfl, rfl, fun h => by simp [h]⟩

theorem schema_rtmp : (ascii "rtmp" ≠ [] ∧ ∀ b ∈ ascii "rtmp", letter b) ∧ ascii "rtmp" ≠ ascii "file" := by unfold letter; decide
theorem schema_http : (ascii "http" ≠ [] ∧ ∀ b ∈ ascii "http", letter b) ∧ ascii "http" ≠ ascii "file" := by unfold letter; decide
theorem schema_srt : (ascii "srt" ≠ [] ∧ ∀ b ∈ ascii "srt", letter b) ∧ ascii "srt" ≠ ascii "file" := by unfold letter; decide

theorem key_ext (host a e : Text) (he : e ≠ []) (hd : e ≠ ascii "-") : cacheKey host (a ++ 46 :: e) e = host ++ a := by
  have h45 : e ≠ [45] := fun h => hd (by rw [h]; decide)
  unfold cacheKey
  rw [if_neg (by simp [he, h45]), if_pos (by simp)]
  congr 1
  rw [show (a ++ 46 :: e).length - e.length - 1 = a.length by simp; omega, List.take_left]

/-- Host and path can be told apart. -/
theorem split_slash : ∀ {a b s t : List UInt8}, (47 : UInt8) ∉ a → (47 : UInt8) ∉ b → a ++ 47 :: s = b ++ 47 :: t → a = b ∧ s = t
  | [], [], _, _, _, _, h => by simpa using h
  | [], y :: b, _, _, _, hb, h => by
    simp only [List.nil_append, List.cons_append, List.cons.injEq] at h
    exact absurd (by simp [← h.1]) hb
  | x :: a, [], _, _, ha, _, h => by
    simp only [List.nil_append, List.cons_append, List.cons.injEq] at h
    exact absurd (by simp [h.1]) ha
  | x :: a, y :: b, s, t, ha, hb, h => by
    simp only [List.cons_append, List.cons.injEq] at h
    obtain ⟨h1, h2⟩ := split_slash (fun hh => ha (List.mem_cons_of_mem _ hh)) (fun hh => hb (List.mem_cons_of_mem _ hh)) h.2
    exact ⟨by rw [h.1, h1], h2⟩

theorem hostOk.noSlash {h : Text} (ok : hostOk h) : (47 : UInt8) ∉ h := by
  intro hm
  have := ok.2 _ hm
  unfold hostChar letter at this
  revert this
  decide

theorem hostOk.noColon {h : Text} (ok : hostOk h) : (58 : UInt8) ∉ h := by
  intro hm
  have := ok.2 _ hm
  unfold hostChar letter at this
  revert this
  decide

theorem hostOk.noComma {h : Text} (ok : hostOk h) : (44 : UInt8) ∉ h ∧ (61 : UInt8) ∉ h := by
  constructor <;> intro hm <;> have := ok.2 _ hm <;> unfold hostChar letter at this <;> revert this <;> decide

theorem pathOk.slash {t : Text} (ok : pathOk t) : ∃ r, t = 47 :: r := by
  obtain ⟨h1, -⟩ := ok
  cases t with
  | nil => simp at h1
  | cons b r => simp at h1; exact ⟨r, by rw [h1]⟩

theorem Stream.pathOk {s : Stream} (ok : s.Ok) : pathOk s.path := by
  obtain ⟨r, hr⟩ := pathOk.slash ok.app
  refine ⟨by rw [Stream.path, hr]; rfl, ?_⟩
  intro b hb
  rw [Stream.path, List.mem_append, List.mem_cons] at hb
  rcases hb with h | rfl | h
  · exact ok.app.2 b h
  · unfold graph; decide
  · exact ok.name.2.1 b h

theorem pathOk_append {a b : Text} (ha : pathOk a) (hb : pathChars b) : pathOk (a ++ b) := by
  obtain ⟨r, rfl⟩ := pathOk.slash ha
  refine ⟨rfl, fun x hx => ?_⟩
  rcases List.mem_append.1 hx with h | h
  · exact ha.2 x h
  · exact hb x h

theorem dot_chars {e : Text} (he : pathChars e) : pathChars (46 :: e) := by
  intro b hb
  rcases List.mem_cons.1 hb with rfl | h
  · unfold graph; decide
  · exact he b h

end Sps.Names
