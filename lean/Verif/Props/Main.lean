import Verif.Model.Main
import Verif.Spec.Main
import Verif.Lemmas.ConfTree
import Verif.Props.SiteFile
/-!
# C123: the start of the program and its exit status
-/
namespace Sps.Main
open Spec Sps.Conf Spec.Conf Spec.SiteFile Spec.Main

/-- The errors of a configuration file. -/
theorem loop_err (fuel : Nat) : ∀ (m : Module) (lines : List Text) (e : Err), loop Err.ERROR_IO_EOF fuel m lines = .err e →
    e = Err.ERROR_CONFIG_PARSE_INVALID ∨ e = Err.ERROR_MODULE_TYPE_NOT_MATCH := by
  induction fuel with
  | zero => intro m lines e h; cases h
  | succ fuel ih =>
    intro m lines e h
    unfold loop at h
    cases lines with
    | nil =>
      simp only at h
      split at h
      · rename_i hn; exact absurd rfl hn
      · split at h <;> cases h
        exact .inl rfl
    | cons l ls =>
      simp only at h
      split at h
      · cases h; exact .inl rfl
      · exact ih _ _ _ h
      · exact ih _ _ _ h
      · split at h <;> cases h
        exact .inl rfl
      · split at h
        · exact ih _ _ _ h
        · split at h
          · cases h; exact .inl rfl
          · exact ih _ _ _ h
      · split at h
        · cases h
        · split at h
          · cases h
          · split at h
            · split at h
              · exact ih _ _ _ h
              · rename_i sub rest hs hn
                unfold postSub at h
                split at h
                · cases h
                · cases h
                · cases h
                · cases h
                all_goals split at h <;> cases h
                exact .inr rfl
            · exact ih _ _ _ h

theorem register_err (r : Router) (h : Module) : (r.register h).1 = Err.SUCCESS ∨ (r.register h).1 = Err.ERROR_CONFIG_PARSE_INVALID := by
  unfold Router.register
  repeat' split
  all_goals simp

theorem build_err : ∀ (hs : List Module) (r : Router), (r.build hs).1 = Err.SUCCESS ∨ (r.build hs).1 = Err.ERROR_CONFIG_PARSE_INVALID
  | [], r => .inl rfl
  | h :: hs, r => by
    unfold Router.build
    have := register_err r h
    revert this
    generalize r.register h = x
    intro this
    obtain ⟨e, r'⟩ := x
    simp only
    split
    · exact this
    · exact build_err hs r'

theorem install_err (listen : Int → Err) (e : Err) : ∀ (ss : List Srv) (sites : Assoc Int Site), Setup.install listen sites ss = .err e →
    e = Err.ERROR_CONFIG_PARSE_INVALID ∨ e ≠ Err.SUCCESS ∧ ∃ p, listen p = e
  | [], sites, h => by cases h
  | s :: ss, sites, h => by
    unfold Setup.install at h
    split at h
    · split at h
      · split at h
        · exact install_err listen e ss _ h
        · cases h
      · exact install_err listen e ss _ h
    · have hb := build_err s.hosts .new
      revert h hb
      generalize Router.build .new s.hosts = x
      intro h hb
      obtain ⟨e', r⟩ := x
      simp only at h hb
      split at h
      · cases h
        rcases hb with hb | hb
        · contradiction
        · exact .inl hb
      · split at h
        · rename_i hl
          cases h
          exact .inr ⟨hl, _, rfl⟩
        · exact install_err listen e ss _ h

theorem installAll_err (listen : Int → Err) (e : Err) : ∀ (rs : List (List Srv)) (sites : Assoc Int Site), Setup.installAll listen sites rs = .err e →
    e = Err.ERROR_CONFIG_PARSE_INVALID ∨ e ≠ Err.SUCCESS ∧ ∃ p, listen p = e
  | [], sites, h => by cases h
  | r :: rs, sites, h => by
    unfold Setup.installAll at h
    split at h
    · exact installAll_err listen e rs _ h
    · exact install_err listen e r sites h

/-- The errors of listening. -/
theorem create_err (os : Os) (k : SockKind) : (os.create k).1 ∈ [Err.SUCCESS, Err.ERROR_SOCKET_CREATE, Err.ERROR_ST_OPEN_SOCKET] := by
  unfold Os.create
  repeat' split
  all_goals simp

theorem listen_err {os os' : Os} {t : Transport} {port : Nat} {reuse : Bool} {e : Err} {id : Option Nat} (h : os.serverListen t port reuse = some (e, id, os')) :
    e ∈ [Err.SUCCESS, Err.ERROR_SOCKET_CREATE, Err.ERROR_ST_OPEN_SOCKET, Err.ERROR_SOCKET_SETREUSE, Err.ERROR_SOCKET_BIND, Err.ERROR_SOCKET_LISTEN,
      Err.ERROR_SRT_SOCKET_CREATE, Err.ERROR_SRT_SOCKET_BIND, Err.ERROR_SRT_SOCKET_LISTEN] := by
  have tcp : ∀ x, os.tcpListen port reuse = x → x.1 ∈ [Err.SUCCESS, Err.ERROR_SOCKET_CREATE, Err.ERROR_ST_OPEN_SOCKET, Err.ERROR_SOCKET_SETREUSE,
      Err.ERROR_SOCKET_BIND, Err.ERROR_SOCKET_LISTEN] := by
    intro x hx
    subst hx
    unfold Os.tcpListen
    have hc := create_err os .tcp
    revert hc
    generalize os.create .tcp = c
    intro hc
    obtain ⟨e, i, o⟩ := c
    cases i with
    | none =>
      simp only [List.mem_cons, List.not_mem_nil, or_false] at hc ⊢
      tauto
    | some i =>
      simp only
      repeat' split
      all_goals simp
  unfold Os.serverListen at h
  cases t with
  | tcp =>
    have := tcp _ (Option.some.inj h)
    simp only [List.mem_cons, List.not_mem_nil, or_false] at this ⊢
    tauto
  | https =>
    have := tcp _ (Option.some.inj h)
    simp only [List.mem_cons, List.not_mem_nil, or_false] at this ⊢
    tauto
  | other => cases h
  | srt =>
    have h1 : (os.srtServe port reuse).1 = e := by rw [Option.some.inj h]
    rw [← h1]
    have srt : ∀ (o : Os) (i : Nat), (o.srtListen i port reuse).1 ∈ [Err.SUCCESS, Err.ERROR_SRT_SOCKET_CREATE, Err.ERROR_SRT_SOCKET_BIND, Err.ERROR_SRT_SOCKET_LISTEN] := by
      intro o i
      unfold Os.srtListen
      repeat' split
      all_goals simp
    unfold Os.srtServe
    split
    · simp
    · rename_i i o ho
      have := srt o i
      simp only [List.mem_cons, List.not_mem_nil, or_false] at this ⊢
      tauto

theorem code_status (e : Err) (he : e ∈ [Err.ERROR_CONFIG_PARSE_INVALID, Err.ERROR_MODULE_TYPE_NOT_MATCH, Err.ERROR_FILE_OPEN, Err.ERROR_URL_PROTOCOL_NOT_EXISTS, Err.ERROR_CO_CREATE,
      Err.ERROR_SOCKET_CREATE, Err.ERROR_ST_OPEN_SOCKET, Err.ERROR_SOCKET_SETREUSE, Err.ERROR_SOCKET_BIND, Err.ERROR_SOCKET_LISTEN,
      Err.ERROR_SRT_SOCKET_CREATE, Err.ERROR_SRT_SOCKET_BIND, Err.ERROR_SRT_SOCKET_LISTEN]) : 0 < status (e : Nat) ∧ status (e : Nat) < 256 := by
  revert e
  decide +kernel

/-- **C123**, the program serves, or ends with an exit status that is not 0 (or its behaviour is undefined): whatever it is called with, whatever the files, and whatever listening gives, it does not end with 0. -/
theorem C123_status (m : Machine) (hm : Real m) (args : List Text) : (∃ sites, main m args = .serves sites) ∨ Fails (main m args) ∨ main m args = .crash := by
  unfold main
  split
  · rename_i name rest
    unfold initConfig openFile
    simp only
    split
    · exact .inr (.inl ⟨_, rfl, code_status _ (by simp)⟩)
    · split
      · exact .inr (.inr rfl)
      · split
        · rename_i e he
          refine .inr (.inl ⟨_, rfl, code_status _ ?_⟩)
          split at he
          · split at he <;> cases he
            simp
          · cases he
            simp
        · rename_i file hf
          cases hc : initConf file with
          | err e =>
            refine .inr (.inl ⟨_, rfl, code_status _ ?_⟩)
            rcases loop_err _ _ _ _ hc with h | h <;> rw [h] <;> simp
          | exit => exact .inr (.inl ⟨_, rfl, by decide, by decide⟩)
          | undef => exact .inr (.inr rfl)
          | ok root _ =>
            simp only
            split
            · rename_i hco
              rcases hm.co with h | h
              · exact absurd h hco
              · rw [h]
                exact .inr (.inl ⟨_, rfl, by decide, by decide⟩)
            · split
              · exact .inl ⟨_, rfl⟩
              · rename_i e he
                refine .inr (.inl ⟨_, rfl, code_status _ ?_⟩)
                rcases installAll_err m.listen e _ _ he with h | ⟨h0, p, h⟩
                · rw [h]; simp
                · rcases hm.listen p with h' | ⟨os, os', t, port, reuse, id, h'⟩
                  · rw [← h, h']; simp
                  · have := listen_err h'
                    rw [h] at this
                    simp only [List.mem_cons, List.not_mem_nil, or_false] at this ⊢
                    tauto
              · exact .inr (.inr rfl)
  · exact .inr (.inl ⟨_, rfl, by decide, by decide⟩)

/-- **C123**, a program that serves has read the file it was called with to the end and listens on the port of every server block in it; arguments behind the first one change nothing. -/
theorem C123_serving (m : Machine) (args : List Text) (sites : Assoc Int Site) (h : main m args = .serves sites) :
    ∃ prog name more file root rest, args = prog :: name :: more ∧ Open m name file ∧ initConf file = .ok root rest ∧
      (∀ s ∈ Setup.all root, m.listen (Setup.port s) = Err.SUCCESS ∧ (sites.find (Setup.port s)).isSome) ∧ ∀ more', main m (prog :: name :: more') = .serves sites := by
  have h0 := h
  unfold main at h
  split at h
  · rename_i prog name more
    unfold initConfig openFile at h
    simp only at h
    split at h
    · cases h
    · split at h
      · cases h
      · split at h
        · cases h
        · rename_i file hf
          split at hf
          · rename_i f hf'
            split at hf
            · rename_i hrw
              cases hf
              cases hc : initConf f.bytes with
              | ok root rest =>
                rw [hc] at h
                simp only at h
                split at h
                · cases h
                · split at h
                  · rename_i sites' hs
                    cases h
                    refine ⟨prog, name, more, f.bytes, root, rest, rfl, ?_, hc, C54_listening m.listen root sites hs, fun more' => h0⟩
                    obtain ⟨b, r, w⟩ := f
                    simp only [Bool.and_eq_true] at hrw
                    unfold Open
                    rw [hf', hrw.1, hrw.2]
                  · cases h
                  · cases h
              | err e => rw [hc] at h; cases h
              | exit => rw [hc] at h; cases h
              | undef => rw [hc] at h; cases h
            · cases hf
          · cases hf
  · cases h

/-- **C123**, for sound configurations (see C102) in a file that the program may read and write and whose name makes a URL: the program serves if it can listen on the ports. What is missing: other configurations. -/
theorem C123_starts_partial (m : Machine) (prog name : Text) (more : List Text) (file : Text) (hu : m.url (ascii "file://" ++ name) = true) (hn : name ≠ []) (ho : Open m name file)
    (hc : m.co = 0) (ls : List Text) (hls : IsLines file ls) (hr : noRoot ls) (ts : List Tree) (hw : Writes ls ts) (hl : Legal .root ts) (p : List Tree → Int) (hs : Sound ts p)
    (hp : ∀ s ∈ allServers ts, m.listen (p s) = Err.SUCCESS) :
    ∃ sites, main m (prog :: name :: more) = .serves sites ∧ ∀ s ∈ allServers ts, (sites.find (p s)).isSome := by
  obtain ⟨root, sites, h1, h2, h3⟩ := SiteFile.starts m.listen file ls hls hr ts hw hl p hs hp
  refine ⟨sites, ?_, fun s hm => ?_⟩
  · have hlen : ¬(ascii "file://" ++ name).length < 8 := by
      have : 0 < name.length := List.length_pos_iff.2 hn
      have e : (ascii "file://").length = 7 := by decide +kernel
      rw [List.length_append, e]
      omega
    have ho' : m.file name = some ⟨file, true, true⟩ := ho
    unfold main initConfig openFile
    simp only [ho', hu, hlen, Bool.not_true, Bool.false_eq_true, if_false, Bool.and_self, if_true, h1, hc, ne_eq, not_true, h2]
  · obtain ⟨-, site, h4, -⟩ := h3 s hm
    rw [h4]
    rfl

/-- **C123**, the status tells what went wrong: 255 without a name, 70 for a file that cannot be opened, else the lowest byte of the error found in the file, of `st_init`, or of listening. -/
theorem C123_why (m : Machine) (prog name : Text) (more : List Text) (hu : m.url (ascii "file://" ++ name) = true) (hn : name ≠ []) :
    main m [] = .ended 255 ∧ main m [prog] = .ended 255 ∧
    ((∀ file, ¬Open m name file) → main m (prog :: name :: more) = .ended 70) ∧
    ∀ file, Open m name file →
      (∀ e, initConf file = .err e → main m (prog :: name :: more) = .ended (e % 256)) ∧
      ∀ root rest, initConf file = .ok root rest →
        (m.co = -1 → main m (prog :: name :: more) = .ended 255) ∧
        (m.co = 0 → ∀ e, Setup.start m.listen root = .err e → main m (prog :: name :: more) = .ended (e % 256)) := by
  have hlen : ¬(ascii "file://" ++ name).length < 8 := by
    have : 0 < name.length := List.length_pos_iff.2 hn
    have e : (ascii "file://").length = 7 := by decide +kernel
    rw [List.length_append, e]
    omega
  have hst : ∀ e : Nat, status (e : Int) = e % 256 := fun e => by unfold status; omega
  refine ⟨rfl, rfl, fun ho => ?_, fun file ho => ?_⟩
  · have : openFile m name = .error Err.ERROR_FILE_OPEN := by
      unfold openFile
      split
      · rename_i f hf
        split
        · rename_i hrw
          exfalso
          simp only [Bool.and_eq_true] at hrw
          apply ho f.bytes
          unfold Open
          rw [hf]
          obtain ⟨b, r, w⟩ := f
          simp only at hrw
          rw [hrw.1, hrw.2]
        · rfl
      · rfl
    unfold main initConfig
    simp only [hu, hlen, Bool.not_true, Bool.false_eq_true, if_false, this]
    rfl
  · have hf : openFile m name = .ok file := by
      have ho' : m.file name = some ⟨file, true, true⟩ := ho
      unfold openFile
      simp only [ho', Bool.and_self, if_true]
    unfold main initConfig
    simp only [hu, hlen, Bool.not_true, Bool.false_eq_true, if_false, hf]
    refine ⟨fun e he => by rw [he]; simp only [hst], fun root rest hr => ?_⟩
    rw [hr]
    simp only
    refine ⟨fun hc => ?_, fun hc e he => ?_⟩
    · rw [hc]; rfl
    · rw [hc, he]
      simp only [ne_eq, not_true, if_false, hst]

/-- A machine with one file, `a.conf`, that listens on all ports but 1935 if `busy`. -/
def box (text : String) (r w busy : Bool) : Machine where
  file n := if n = ascii "a.conf" then some ⟨ascii text, r, w⟩ else none
  url _ := true
  co := 0
  listen p := if busy ∧ p = 1935 then Err.ERROR_SOCKET_BIND else Err.SUCCESS

/-- The ports it serves, or the exit status; `none` is a crash. -/
def seen (o : Outcome) : Option (Nat ⊕ List Int) := match o with
  | .serves sites => some (.inr (sites.map (·.1)))
  | .ended s => some (.inl s)
  | .crash => none

/-- A file that makes servers on two ports. -/
def two : String := "http {\nserver {\nlisten_port 80;\nhost a.com {\n}\n}\n}\nrtmp {\nserver {\nlisten_port 1935;\nhost a.com {\n}\n}\n}\n"

example : Real (box two true true true) where
  listen p := by
    right
    have h : (box two true true true).listen p = Err.ERROR_SOCKET_BIND ∨ (box two true true true).listen p = Err.SUCCESS := by
      show (if _ then _ else _) = _ ∨ (if _ then _ else _) = _
      split
      · exact .inl rfl
      · exact .inr rfl
    rcases h with h | h <;> rw [h]
    · exact ⟨⟨3, [], [true, true, true, false]⟩, (Os.tcpListen ⟨3, [], [true, true, true, false]⟩ 1935 false).2.2, .tcp, 1935, false, none, rfl⟩
    · exact ⟨⟨3, [], []⟩, (Os.tcpListen ⟨3, [], []⟩ 80 false).2.2, .tcp, 80, false, some 3, rfl⟩
  co := .inl rfl

example : [main (box two true true false) [ascii "sps", ascii "a.conf"], main (box two true true true) [ascii "sps", ascii "a.conf"],
      main (box two true true false) [ascii "sps"], main (box two true true false) [ascii "sps", ascii "b.conf"],
      main (box "http {\n" true true false) [ascii "sps", ascii "a.conf"], main (box "what {\n}\n" true true false) [ascii "sps", ascii "a.conf"]].map seen =
    [some (.inr [1935, 80]), some (.inl 234), some (.inl 255), some (.inl 70), some (.inl 93), some (.inl 255)] := by decide +kernel

/-- **C123**, a file that the program may read but not write is not read: it ends with 70, although a file with the same text that may be written to makes it serve. -/
theorem C123_negation_readonly : seen (main (box two true false false) [ascii "sps", ascii "a.conf"]) = some (.inl 70) ∧
    seen (main (box two true true false) [ascii "sps", ascii "a.conf"]) = some (.inr [1935, 80]) := by decide +kernel

/-- **C123**, with two `http` blocks the program neither serves nor ends with a status: what it does is undefined. -/
theorem C123_negation_crash : seen (main (box "http {\nserver {\nlisten_port 80;\nhost a.com {\n}\n}\n}\nhttp {\nserver {\nlisten_port 81;\nhost b.com {\n}\n}\n}\n" true true false)
    [ascii "sps", ascii "a.conf"]) = none := by decide +kernel

/-- **C123**, a file whose name does not make a URL is not opened, whatever is in it. -/
theorem C123_negation_name (m : Machine) (prog name : Text) (more : List Text) (h : m.url (ascii "file://" ++ name) = false) :
    main m (prog :: name :: more) = .ended 60 := by
  unfold main initConfig
  simp only [h, Bool.not_false, if_true]
  rfl

end Sps.Main
