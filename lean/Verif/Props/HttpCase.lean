import Verif.Props.HttpLive
/-!
# C119: how a request's header is written
-/
namespace Sps.HttpCase
open Spec Spec.Http Spec.HttpConn Spec.HttpLive Sps.HttpConn Sps.HttpLive

/-- The URL depends on the header through the value of the field `Host` only. -/
theorem http_host (parser : Text → Option UrlFields) (method target : Text) {hs hs' : List Header} (h : Url.lookup (ascii "Host") hs = Url.lookup (ascii "Host") hs') :
    { Names.http parser method target hs with headers := [] } = { Names.http parser method target hs' with headers := [] } := by
  unfold Names.http Names.parseUrl
  rw [h]
  simp only
  generalize (if Url.lookup (ascii "Host") hs' ≠ [] then ascii "http://" ++ Url.lookup (ascii "Host") hs' ++ target else ascii "http:/" ++ target) = full
  cases parser full with
  | none => rfl
  | some f =>
    simp only [Option.bind_some, Url.parse]
    by_cases hf : f.schema.getD [] = ascii "file"
    · by_cases hl : full.length < 8
      · simp only [if_pos hf, if_pos hl, Option.getD_none]
      · simp only [if_pos hf, if_neg hl, Option.getD_some]
    · simp only [if_neg hf, Option.getD_some]

/-- **C119** (fields). Two requests with the same method, target and host end up in the same place, whatever else their headers say, in whatever order the fields come, in whatever case the names of the
other fields are written and in whatever pieces the bytes arrive. Missing: the field `host` and the name in it are case-sensitive (`C119_negation_field`, `C119_negation_name`). -/
theorem C119_fields_partial (s : HttpSite) (hp : ReadsSends s.parsers) (a a' : Send) (ok : a.Ok) (ok' : a'.Ok) (hm : a.method = a'.method) (ht : a.target = a'.target) (hh : a.host = a'.host)
    (ho : a.port = a'.port) (c c' : Sps.HttpConn) (t t' : List UInt8) (e e' : Err) (ha : Arrives c.io (a.head ++ t) e) (ha' : Arrives c'.io (a'.head ++ t') e') (mem mem' tag tag' : List UInt8) :
    Alike (s.arrive mem tag c) (s.arrive mem' tag' c') := by
  obtain ⟨io, h1, h2⟩ := parse_send hp ok ha
  obtain ⟨io', h1', h2'⟩ := parse_send hp ok' ha'
  have hu := http_host s.parsers.url a'.method a'.target (hs := a.fields) (hs' := a'.fields) (by rw [(send_fields ok).1, (send_fields ok').1, hh, ho])
  rw [hm, ht] at h1
  generalize Names.http s.parsers.url a'.method a'.target a.fields = u at *
  generalize Names.http s.parsers.url a'.method a'.target a'.fields = u' at *
  have hhost : u.host = u'.host := by injection hu
  unfold HttpSite.arrive
  rw [h1, h1']
  simp only [ne_eq, not_true_eq_false, if_false]
  rw [hhost]
  cases s.router.find u'.host with
  | none => trivial
  | some h =>
    simp only
    cases Host.adapter h with
    | streaming => exact ⟨rfl, hu⟩
    | api => rfl
    | proxying => rfl

/-- The player of `HttpLive.gets`, who writes the names of the fields in small letters. -/
def small (name host : String) : List UInt8 := ascii "GET /live/x.flv HTTP/1.1" ++ crlf ++ ascii name ++ ascii ": " ++ ascii host ++ crlf ++ ascii "accept: */*" ++ crlf ++ crlf

/-- Which stream a request is for; `some none`: no host block serves it. -/
def served : Except Phase.Stop HttpArrival → Option (Option Text)
  | .ok .unknown => some none
  | .ok (.stream q) => some (some (StreamHandler.key q.url))
  | _ => none

/-- **C119** negation: the field `host` in small letters is not found; the first segment of the path is taken for the host. -/
theorem C119_negation_field : served (server.arrive [] [] (wires (small "Host" "a.com"))) = some (some (ascii "a.com/live/x")) ∧
    served (server.arrive [] [] (wires (small "host" "a.com"))) = some none := by decide +kernel

/-- **C119** negation: the name of the host in capitals is another host. -/
theorem C119_negation_name : served (server.arrive [] [] (wires (small "Host" "a.com"))) = some (some (ascii "a.com/live/x")) ∧
    served (server.arrive [] [] (wires (small "Host" "A.com"))) = some none := by decide +kernel

/-- Another header for the same request. -/
def gets' : Send := { gets with fields := [(ascii "ACCEPT", ascii "text/html"), (ascii "cookie", ascii "k=1"), (ascii "Host", ascii "a.com")] }

example : gets'.Ok ∧ gets.method = gets'.method ∧ gets.target = gets'.target ∧ gets.host = gets'.host ∧ gets.port = gets'.port ∧ gets.head ≠ gets'.head :=
  ⟨⟨by decide +kernel, by decide +kernel, by intro t h; simp [gets', gets] at h, by decide +kernel, by intro t h; simp [gets', gets] at h, by decide +kernel, .inl (by decide +kernel),
    by intro b h; simp [gets', gets] at h, by decide +kernel⟩, rfl, rfl, rfl, rfl, by decide +kernel⟩

end Sps.HttpCase
