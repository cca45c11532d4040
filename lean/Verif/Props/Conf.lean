import Verif.Lemmas.ConfTree
/-!
# Configuration files
-/
namespace Sps
open Spec.Conf Conf

/-! ## C48: lines -/

/-- **C48.** A line is accepted as empty, comment, directive, start or end of a block exactly if its words say so; command and
argument are those of the line. -/
theorem C48_line (line : Text) (x : Line) : parse line = some x ↔ LineSays line x := parse_iff line x

/-- **C48**, everything else is an error. -/
theorem C48_error (line : Text) : parse line = none ↔ ∀ x, ¬LineSays line x := by
  constructor
  · intro h x hx
    rw [parse_says hx] at h
    cases h
  · intro h
    cases hp : parse line with
    | none => rfl
    | some x => exact absurd (says_parse hp) (h x)

/-- **C48**, the name in `host a.com{` is lost. -/
theorem C48_negation_glued : parse (ascii "host a.com{") = some (.start (ascii "host") []) ∧
    parse (ascii "host a.com {") = some (.start (ascii "host") (ascii "a.com")) := by decide +kernel

/-- **C48**, a comment in which a word ends with a semicolon is an error, unless the next word begins with `#` again. -/
theorem C48_negation_comment : parse (ascii "# off; see below") = none ∧ parse (ascii "# off, see below") = some .comment := by decide +kernel

/-- **C48**, a directive before a closing brace is ignored. -/
theorem C48_negation_close : parse (ascii "listen_port 80 }") = some .close := by decide +kernel

example : parse (ascii "  pass_proxy github   x; # upstream") = some (.item (ascii "pass_proxy") (ascii "github x")) ∧
    parse (ascii "\t server tcp80 { ") = some (.start (ascii "server") (ascii "tcp80")) ∧ parse (ascii "   ") = some .empty ∧
    parse (ascii "#x") = some .comment ∧ parse (ascii " }\r") = some .close ∧ parse (ascii "a b") = none ∧
    parse (ascii "a;") = none ∧ parse (ascii "a ;") = some (.item (ascii "a") []) ∧ parse (ascii "a b; c") = none := by decide +kernel

/-! ## C49: files -/

/-- **C49.** A file without a block `root` is accepted exactly if it is a list of legal directives and blocks, and then the result is
the module these stand for. -/
theorem C49_file (file : Text) (ls : List Text) (hls : IsLines file ls) (hr : noRoot ls) (m : Module) (rest : List Text) :
    initConf file = .ok m rest ↔ ∃ ts, Writes ls ts ∧ Legal .root ts ∧ m = build .root [] ts ∧ rest = [] := by
  rw [initConf_eq, lines_of _ _ hls]
  constructor
  · intro h
    obtain ⟨ls', ts, h1, h2, h3, h4⟩ := writes_run _ _ ls (.mk .root [] (defaults .root) []) m rest (Nat.le_refl _)
      (show Kind.root ≠ .location by decide) hr h
    have h2 : Legal .root ts := h2
    rcases h4 with ⟨_, rfl, h5, _⟩ | ⟨h4, _⟩
    · exact ⟨ts, h1, h2, by rw [h3, apply_new h2], h5⟩
    · exact absurd rfl h4
  · rintro ⟨ts, h1, h2, rfl, rfl⟩
    have := run_writes h1 Err.ERROR_IO_EOF (.mk .root [] (defaults .root) []) [] h2
    rw [List.append_nil] at this
    rw [this, apply_new h2]
    rfl

/-- **C49**, what is written in the usual way is read back: rendering a tree of plain words and parsing it gives the module the
tree stands for. -/
theorem C49_render (ts : List Tree) (hc : Clean ts) (hl : Legal .root ts) :
    initConf (fileOf (renders ts)) = .ok (build .root [] ts) [] := by
  rw [initConf_eq, lines_of _ _ (isLines_file _ (render_lf hc))]
  have := run_writes (render_writes hc) Err.ERROR_IO_EOF (.mk .root [] (defaults .root) []) [] hl
  rw [List.append_nil] at this
  rw [this, apply_new hl]
  rfl

/-- How many more blocks these lines begin than they end. -/
def Conf.depth : List Text → Int
  | [] => 0
  | l :: ls => (match parse l with
    | some (.start _ _) => 1
    | some .close => -1
    | _ => 0) + Conf.depth ls

theorem Conf.depth_append (a b : List Text) : Conf.depth (a ++ b) = Conf.depth a + Conf.depth b := by
  induction a with
  | nil => simp [Conf.depth]
  | cons l a ih => simp only [List.cons_append, Conf.depth, ih]; omega

theorem Conf.writes_depth {ls : List Text} {ts : List Tree} (h : Writes ls ts) :
    Conf.depth ls = 0 ∧ ∀ n, 0 ≤ Conf.depth (ls.take n) := by
  induction h with
  | done => exact ⟨rfl, fun n => by simp [Conf.depth]⟩
  | skip l ls ts hl _ ih =>
    have hl : (match parse l with
      | some (.start _ _) => (1 : Int)
      | some .close => -1
      | _ => 0) = 0 := by
      rcases hl with hl | hl <;> rw [parse_says hl]
    refine ⟨by simp only [Conf.depth, hl, ih.1]; rfl, fun n => ?_⟩
    cases n with
    | zero => simp [Conf.depth]
    | succ n => simp only [List.take_succ_cons, Conf.depth, hl]; have := ih.2 n; omega
  | dir l n a ls ts hl _ ih =>
    have hl := parse_says hl
    refine ⟨by simp only [Conf.depth, hl, ih.1]; rfl, fun n => ?_⟩
    cases n with
    | zero => simp [Conf.depth]
    | succ n => simp only [List.take_succ_cons, Conf.depth, hl]; have := ih.2 n; omega
  | block l n a c is ls ks ts hl _ hc _ ih1 ih2 =>
    have hl := parse_says hl
    have hc := parse_says hc
    refine ⟨by simp only [Conf.depth, Conf.depth_append, hl, hc, ih1.1, ih2.1]; rfl, fun n => ?_⟩
    cases n with
    | zero => simp [Conf.depth]
    | succ n =>
      simp only [List.take_succ_cons, Conf.depth, hl, List.take_append, Conf.depth_append]
      have h1 := ih1.2 n
      cases hn : n - is.length with
      | zero => simp only [List.take_zero, Conf.depth]; omega
      | succ k =>
        have hk : is.take n = is := List.take_of_length_le (by omega)
        have := ih2.2 k
        simp only [List.take_succ_cons, Conf.depth, hc, hk, ih1.1]
        omega

/-- **C49**, an accepted file closes every block it begins and never closes one it did not begin. -/
theorem C49_balanced (file : Text) (ls : List Text) (hls : IsLines file ls) (hr : noRoot ls) (m : Module) (rest : List Text)
    (h : initConf file = .ok m rest) : Conf.depth ls = 0 ∧ ∀ n, 0 ≤ Conf.depth (ls.take n) := by
  obtain ⟨ts, hw, _⟩ := (C49_file file ls hls hr m rest).1 h
  exact Conf.writes_depth hw

/-- **C49**, a block `root` in the file is accepted although it is not closed. -/
theorem C49_negation_root : (match initConf (ascii "root x {\nhost y;\n") with
    | .ok m _ => m.inner.map (fun i => (i.kind, i.name))
    | _ => []) = [(.root, ascii "x")] := by decide +kernel

/-- **C49**, a block `location` makes the program read behind its table of options. -/
theorem C49_negation_location : (match initConf (ascii "location / {\n}\n") with
    | .undef => true
    | _ => false) = true := by decide +kernel

/-- A configuration in the style of `conf/sps.conf`. -/
def Conf.sample : Text := ascii "comment core;\n\nupstream u1 {\n    server 127.0.0.1:8080;\n    keepalive 80;\n}\n\nhttp {\n    server tcp80 {\n        listen_port      8080; # port\n        transport        tcp;\n        host github80.com {\n            pass_proxy github.com:80;\n            role       proxy;\n            type       proxy;      #\n        }\n    }\n}\n"

/-- The modules of the sample, with their modules. -/
def Conf.sampleModules : List Module := match initConf Conf.sample with
  | .ok m [] => m.inner ++ m.inner.flatMap (·.inner) ++ m.inner.flatMap (·.inner.flatMap (·.inner))
  | _ => []

example : Conf.sampleModules.map (fun m => (m.kind, m.name)) = [(.upstream, ascii "u1"), (.http, []), (.server, ascii "tcp80"), (.host, ascii "github80.com")] ∧
    Conf.sampleModules.map (fun m => m.conf (ascii "listen_port")) = [none, none, some (.int 8080), none] ∧
    Conf.sampleModules.map (fun m => m.conf (ascii "role")) = [none, none, none, some (.str (ascii "proxy"))] ∧
    Conf.sampleModules.map (fun m => m.conf (ascii "keepalive")) = [some (.int 80), none, none, none] := by decide +kernel

/-- The sample begins no block `root`. -/
theorem Conf.sample_noRoot : noRoot (Text.lines Conf.sample) := by
  intro l hl a h
  have h1 := parse_says h
  have h2 : ∀ l ∈ Text.lines Conf.sample, ((parse l).map fun x => match x with
    | .start n _ => decide (n = Kind.root.name)
    | _ => false) ≠ some true := by decide +kernel
  exact h2 l hl (by rw [h1]; simp)

example : IsLines Conf.sample (Text.lines Conf.sample) ∧ noRoot (Text.lines Conf.sample) ∧ (Text.lines Conf.sample).length = 18 :=
  ⟨isLines_lines _, Conf.sample_noRoot, by decide +kernel⟩

/-- A tree with blocks inside blocks. -/
def Conf.sampleTree : List Tree :=
  [.dir (ascii "comment") (join [ascii "core"]), .block Kind.http.name (join []) [.block Kind.server.name (join [ascii "tcp80"])
    [.dir (ascii "listen_port") (join [ascii "8080"]), .block Kind.host.name (join [ascii "a.com"]) [.dir (ascii "role") (join [ascii "proxy"])]]]]

theorem Conf.plain_of (w : Text) (h1 : w ≠ []) (h2 : ∀ b ∈ w, b ∉ ([9, 10, 11, 12, 13, 32] : List UInt8))
    (h3 : ∀ c ∈ ([59, 123, 125] : List UInt8), w.getLast? ≠ some c) : plain w :=
  ⟨h1, h2, fun ⟨c, a, b⟩ => h3 c b a⟩

example : Clean Conf.sampleTree ∧ Legal .root Conf.sampleTree := by
  have p : ∀ w ∈ [ascii "comment", Kind.http.name, Kind.server.name, ascii "listen_port", Kind.host.name, ascii "role", ascii "core",
      ascii "tcp80", ascii "8080", ascii "a.com", ascii "proxy"], plain w ∧ ¬pound w := by
    intro w hw
    have : ∀ w ∈ [ascii "comment", Kind.http.name, Kind.server.name, ascii "listen_port", Kind.host.name, ascii "role", ascii "core",
      ascii "tcp80", ascii "8080", ascii "a.com", ascii "proxy"], w ≠ [] ∧ (∀ b ∈ w, b ∉ ([9, 10, 11, 12, 13, 32] : List UInt8)) ∧
        (∀ c ∈ ([59, 123, 125] : List UInt8), w.getLast? ≠ some c) ∧ w.head? ≠ some 35 := by decide +kernel
    obtain ⟨a, b, c, d⟩ := this w hw
    exact ⟨Conf.plain_of w a b c, d⟩
  have q : ∀ w ∈ [ascii "comment", Kind.http.name, Kind.server.name, ascii "listen_port", Kind.host.name, ascii "role", ascii "core",
      ascii "tcp80", ascii "8080", ascii "a.com", ascii "proxy"], ∀ x ∈ [w], plain x := by
    intro w hw x hx
    rw [List.mem_singleton] at hx
    rw [hx]
    exact (p w hw).1
  constructor
  · refine .dir _ _ _ (p _ (by simp)).1 (p _ (by simp)).2 (q _ (by simp)) (.block _ _ _ _ (p _ (by simp)).1 (p _ (by simp)).2
      (fun w hw => by cases hw) (.block _ _ _ _ (p _ (by simp)).1 (p _ (by simp)).2 (q _ (by simp))
        (.dir _ _ _ (p _ (by simp)).1 (p _ (by simp)).2 (q _ (by simp)) (.block _ _ _ _ (p _ (by simp)).1 (p _ (by simp)).2
          (q _ (by simp)) (.dir _ _ _ (p _ (by simp)).1 (p _ (by simp)).2 (q _ (by simp)) .nil) .nil)) .nil) .nil)
  · refine .dir _ _ _ _ (by decide +kernel) (.block _ .http _ _ _ (by decide) (by decide) trivial (.block _ .server _ _ _ (by decide)
      (by decide) rfl (.dir _ _ _ _ (by decide +kernel) (.block _ .host _ _ _ (by decide) (by decide)
        ⟨rfl, by decide +kernel⟩ (.dir _ _ _ _ (by decide +kernel) (.nil _)) (.nil _))) (.nil _)) (.nil _))

example : (match initConf (ascii "http {\n") with | .err e => e | _ => 0) = Err.ERROR_CONFIG_PARSE_INVALID ∧
    (match initConf (ascii "http {\n}\n}\n") with | .err e => e | _ => 0) = Err.ERROR_CONFIG_PARSE_INVALID := by decide +kernel

/-! ## C50: options -/

/-- **C50.** When a block has been read, every option has the meaning of the last directive naming it, or of its default if there
is none; names that are no options (or name blocks) have no value. -/
theorem C50_options (fin : Err) (k : Kind) (name : Text) (lines : List Text) (m : Module) (rest : List Text) (hk : k ≠ .location)
    (hk' : k ≠ .root) (hr : noRoot lines) (h : loop fin (lines.length + 1) (.mk k name (defaults k) []) lines = .ok m rest) :
    ∃ ls c ts, lines = ls ++ c :: rest ∧ LineSays c .close ∧ Writes ls ts ∧ m.kind = k ∧ m.name = name ∧
      (∀ o ∈ k.opts, o.type ≠ .sub → ∀ v, Means o.type ((lastArg o.name ts).getD o.dflt) v → m.conf o.name = some v) ∧
      (∀ n, (∀ o ∈ k.opts, o.type ≠ .sub → o.name ≠ n) → m.conf n = none) := by
  obtain ⟨ls, ts, h1, h2, h3, h4⟩ := writes_run fin _ lines (.mk k name (defaults k) []) m rest (Nat.le_refl _) hk hr h
  have h2 : Legal k ts := h2
  rcases h4 with ⟨h4, _⟩ | ⟨_, c, h5, h6⟩
  · exact absurd h4 hk'
  rw [apply_new h2] at h3
  subst h3
  refine ⟨ls, c, ts, h5, h6, h1, rfl, rfl, ?_, ?_⟩
  · intro o ho _ v hv
    show value k ts o.name = some v
    unfold value
    rw [opt_of ho]
    exact means_value hv
  · intro n hn
    show value k ts n = none
    unfold value
    cases hf : k.opts.find? fun o => o.name = n with
    | none => rfl
    | some o =>
      have ht : o.type = .sub := by
        refine Decidable.byContradiction fun ht => hn o (List.mem_of_find?_eq_some hf) ht (by simpa using List.find?_some hf)
      simp only [Opt.value, ht]

/-- **C50**, every option but blocks has a meaningful default. -/
theorem C50_defaults (k : Kind) (o : Opt) (ho : o ∈ k.opts) (hs : o.type ≠ .sub) : ∃ v, Means o.type o.dflt v := by
  have h : ∀ k : Kind, ∀ o ∈ k.opts, o.type ≠ .sub → (o.type = .str ∧ ∀ b ∈ o.dflt, b ≠ 0) ∨ (o.type = .int ∧ o.dflt ≠ [] ∧
      ((Spec.Http.decValue 0 o.dflt).map fun n => decide (n < 2 ^ 31)) = some true) ∨
      (o.type = .u64 ∧ o.dflt = ascii "-1") ∨ (o.type = .bool ∧ (o.dflt = ascii "on" ∨ o.dflt = ascii "off")) := by
    intro k; cases k <;> decide +kernel
  rcases h k o ho hs with ⟨h1, h2⟩ | ⟨h1, h2, h3⟩ | ⟨h1, h2⟩ | ⟨h1, h2 | h2⟩
  · rw [h1]
    exact ⟨_, .str _ h2⟩
  · rw [h1]
    cases hd : Spec.Http.decValue 0 o.dflt with
    | none => rw [hd] at h3; cases h3
    | some n =>
      rw [hd] at h3
      exact ⟨_, .int _ n h2 hd (by simpa using h3)⟩
  · rw [h1, h2]
    exact ⟨_, .forever⟩
  · rw [h1, h2]
    exact ⟨_, .on⟩
  · rw [h1, h2]
    exact ⟨_, .off⟩

/-- **C50**, with the options named: in a block that has been read, a documented option has the meaning its last directive has for its type,
and its documented value if there is no such directive; the block has no other options (but for the names of blocks inside it). -/
theorem C50_documented (fin : Err) (k : Kind) (name : Text) (lines : List Text) (m : Module) (rest : List Text) (hk : k ≠ .location)
    (hk' : k ≠ .root) (hr : noRoot lines) (h : loop fin (lines.length + 1) (.mk k name (defaults k) []) lines = .ok m rest) :
    ∃ ls c ts, lines = ls ++ c :: rest ∧ LineSays c .close ∧ Writes ls ts ∧
      (∀ ks n t v, (ks, n, t, v) ∈ documented → k ∈ ks →
        (∀ a x, lastArg n ts = some a → Means t a x → m.conf n = some x) ∧ (lastArg n ts = none → m.conf n = some v)) ∧
      (∀ n, (∀ ks t v, (ks, n, t, v) ∈ documented → k ∉ ks) → m.conf n = none) := by
  obtain ⟨ls, c, ts, h1, h2, h3, -, -, h6, h7⟩ := C50_options fin k name lines m rest hk hk' hr h
  have hrow : ∀ k : Kind, k ≠ .location → ∀ r ∈ documented, k ∈ r.1 → ∃ o ∈ k.opts, o.name = r.2.1 ∧ o.type = r.2.2.1 ∧ o.type ≠ .sub ∧
      o.value o.dflt = some r.2.2.2 := by
    intro k; cases k <;> decide +kernel
  have hopt : ∀ k : Kind, k ≠ .location → ∀ o ∈ k.opts, o.type ≠ .sub → ∃ r ∈ documented, r.2.1 = o.name ∧ k ∈ r.1 := by
    intro k; cases k <;> decide +kernel
  refine ⟨ls, c, ts, h1, h2, h3, ?_, ?_⟩
  · intro ks n t v hd hks
    obtain ⟨o, ho, e1, e2, e3, e4⟩ := hrow k hk _ hd hks
    simp only at e1 e2 e4
    subst e1 e2
    refine ⟨fun a x ha hx => h6 o ho e3 x (by rw [ha]; exact hx), fun hn => ?_⟩
    obtain ⟨x, hx⟩ := C50_defaults k o ho e3
    have := means_value hx
    rw [e4] at this
    cases this
    exact h6 o ho e3 _ (by rw [hn]; exact hx)
  · intro n hn
    refine h7 n fun o ho ht he => ?_
    obtain ⟨⟨ks, n', t, v⟩, r1, r2, r3⟩ := hopt k hk o ho ht
    simp only at r2 r3
    subst r2
    exact hn ks t v (by rw [← he]; exact r1) r3

/-- **C50**, any text that begins with `on` switches an option on, and any other (`true`, `yes`, `1`) switches it off. -/
theorem C50_negation_bool : (Opt.mk (ascii "enabled") .bool []).value (ascii "one day") = some (.bool true) ∧
    (Opt.mk (ascii "enabled") .bool []).value (ascii "true") = some (.bool false) := by decide +kernel

example : (match loop Err.ERROR_IO_EOF 6 (.mk .server (ascii "s") (defaults .server) [])
      [ascii "listen_port 80;", ascii "unknown x;", ascii "listen_port 8080;", ascii "reuse_port on;", ascii "}"] with
    | .ok m [] => (m.conf (ascii "listen_port"), m.conf (ascii "reuse_port"), m.conf (ascii "recv_timeout"), m.conf (ascii "unknown"))
    | _ => (none, none, none, none)) = (some (.int 8080), some (.bool true), some (.u64 (2 ^ 64 - 1)), none) := by decide +kernel

end Sps
