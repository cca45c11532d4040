import Verif.Spec.RtmpMsgs
import Verif.Lemmas.Bits
/-!
# Lemmas for C101
-/
namespace Sps.RtmpMsgs
open Spec Spec.RtmpMsgs AmfEnc

theorem be_length (w n : Nat) : (be w n).length = w := by
  induction w with
  | zero => rfl
  | succ w ih => simp [be, ih]

theorem be_eq (w n : Nat) : be w n = beBytes w n := by
  induction w with
  | zero => rfl
  | succ w ih => rw [be, beBytes, ih]

theorem beVal_be (w n : Nat) : beVal (be w n) = n % 256 ^ w := by rw [be_eq, beVal_beBytes]

theorem short_be {s : Text} (h : s.length < 65536) (r : List UInt8) : short (be 2 s.length ++ (s ++ r)) = some (s, r) := by
  have h1 := beVal_be 2 s.length
  simp only [be] at h1
  simp only [be, List.cons_append, List.nil_append, short]
  rw [h1, Nat.mod_eq_of_lt (by omega), if_pos (by simp)]
  simp

/-- AMF0, the other way round. -/
def encA : Atom → List UInt8
  | .num b => 0 :: be 8 b
  | .bool b => [1, if b then 1 else 0]
  | .str s => 2 :: be 2 s.length ++ s
  | .null => [5]

def encF (f : Text × Atom) : List UInt8 := be 2 f.1.length ++ f.1 ++ encA f.2

def encV : Val → List UInt8
  | .atom a => encA a
  | .obj fs => 3 :: fs.flatMap encF ++ [0, 0, 9]

def AtomOk : Atom → Prop
  | .num b => b < 2 ^ 64
  | .str s => s.length < 65536
  | _ => True

def ValOk : Val → Prop
  | .atom a => AtomOk a
  | .obj fs => ∀ f ∈ fs, f.1 ≠ [] ∧ f.1.length < 65536 ∧ AtomOk f.2

theorem atom_enc {a : Atom} (h : AtomOk a) (r : List UInt8) : atom (encA a ++ r) = some (a, r) := by
  cases a with
  | num b =>
    simp only [encA, List.cons_append, atom]
    have hl := be_length 8 b
    rw [if_pos (by simp [hl]), List.take_left' hl, List.drop_left' hl, beVal_be, Nat.mod_eq_of_lt h]
  | bool b => cases b <;> rfl
  | str s =>
    simp only [encA, List.cons_append, atom, List.append_assoc]
    rw [short_be h]
    rfl
  | null => rfl

theorem fields_enc {fs : List (Text × Atom)} (h : ∀ f ∈ fs, f.1 ≠ [] ∧ f.1.length < 65536 ∧ AtomOk f.2) (r : List UInt8) : ∀ n, fs.length < n →
    fields n (fs.flatMap encF ++ ([0, 0, 9] ++ r)) = some (fs, r) := by
  induction fs with
  | nil =>
    intro n hn
    obtain ⟨n, rfl⟩ : ∃ m, n = m + 1 := ⟨n - 1, by omega⟩
    rfl
  | cons f fs ih =>
    intro n hn
    obtain ⟨n, rfl⟩ : ∃ m, n = m + 1 := ⟨n - 1, by omega⟩
    obtain ⟨h1, h2, h3⟩ := h f (by simp)
    have hpos : 0 < f.1.length := List.length_pos_iff.2 h1
    have hs : short (be 2 f.1.length ++ (f.1 ++ (encA f.2 ++ (fs.flatMap encF ++ ([0, 0, 9] ++ r))))) = some (f.1, encA f.2 ++ (fs.flatMap encF ++ ([0, 0, 9] ++ r))) := short_be h2 _
    have hnot : ∀ l, be 2 f.1.length ++ (f.1 ++ (encA f.2 ++ (fs.flatMap encF ++ ([0, 0, 9] ++ r)))) ≠ 0 :: 0 :: 9 :: l := by
      intro l he
      simp only [be, List.cons_append, List.nil_append, List.cons.injEq] at he
      have h5 := congrArg UInt8.toNat he.1
      have h6 := congrArg UInt8.toNat he.2.1
      simp at h5 h6
      omega
    simp only [List.flatMap_cons, encF, List.append_assoc]
    unfold fields
    split
    · contradiction
    · rename_i heq
      exact absurd heq (hnot _)
    · rename_i heq _
      cases heq
      rw [hs]
      simp only [Option.bind_eq_bind, Option.bind_some, atom_enc h3, ih (fun g hg => h g (by simp [hg])) n (by simpa using hn)]
      rfl

theorem value_atom {b : UInt8} (hb : b ≠ 3) (l : List UInt8) : value (b :: l) = (atom (b :: l)).map fun x => (.atom x.1, x.2) := by
  unfold value
  split
  · rename_i heq
    cases heq
    exact absurd rfl hb
  · rfl

theorem value_enc {v : Val} (h : ValOk v) (r : List UInt8) : value (encV v ++ r) = some (v, r) := by
  cases v with
  | atom a =>
    have ha := atom_enc h r
    simp only [encV]
    cases a with
    | num b => simp only [encA, List.cons_append] at ha ⊢; rw [value_atom (by decide), ha]; rfl
    | bool b => simp only [encA, List.cons_append] at ha ⊢; rw [value_atom (by decide), ha]; rfl
    | str s => simp only [encA, List.cons_append] at ha ⊢; rw [value_atom (by decide), ha]; rfl
    | null => rfl
  | obj fs =>
    have hl : fs.length ≤ (fs.flatMap encF).length := by
      clear h
      induction fs with
      | nil => simp
      | cons f fs ih => simp [encF, be_length] at ih ⊢; omega
    have h1 := fields_enc h r ((fs.flatMap encF ++ ([0, 0, 9] ++ r)).length + 1) (by simp only [List.length_append]; omega)
    rw [show encV (.obj fs) ++ r = 3 :: (fs.flatMap encF ++ ([0, 0, 9] ++ r)) by simp [encV]]
    simp only [value, h1]
    rfl

theorem encV_ne (v : Val) : encV v ≠ [] := by
  cases v with
  | atom a => cases a <;> simp [encV, encA]
  | obj fs => simp [encV]

theorem values_enc {vs : List Val} (h : ∀ v ∈ vs, ValOk v) : ∀ n, vs.length ≤ n → values n (vs.flatMap encV) = some vs := by
  induction vs with
  | nil => intro n _; cases n <;> rfl
  | cons v vs ih =>
    intro n hn
    obtain ⟨n, rfl⟩ : ∃ m, n = m + 1 := ⟨n - 1, by simp at hn; omega⟩
    simp only [List.flatMap_cons]
    have hne : encV v ++ vs.flatMap encV ≠ [] := by simp [encV_ne]
    unfold values
    split
    · contradiction
    · contradiction
    · rename_i heq _
      cases heq
      rw [value_enc (h v (by simp))]
      simp only [Option.bind_eq_bind, Option.bind_some, ih (fun w hw => h w (by simp [hw])) n (by simpa using hn)]
      rfl

theorem values_len {vs : List Val} : vs.length ≤ (vs.flatMap encV).length := by
  induction vs with
  | nil => simp
  | cons v vs ih =>
    have := List.length_pos_iff.2 (encV_ne v)
    simp only [List.flatMap_cons, List.length_append, List.length_cons]
    omega

/-- A message with these values in its body. -/
theorem command_says {c s : Nat} {vs : List Val} (h : ∀ v ∈ vs, ValOk v) : meaning ⟨c, 20, s, vs.flatMap encV⟩ = some (.command vs) := by
  simp only [meaning, values_enc h _ values_len]
  rfl

theorem data_says {c s : Nat} {vs : List Val} (h : ∀ v ∈ vs, ValOk v) : meaning ⟨c, 18, s, vs.flatMap encV⟩ = some (.data vs) := by
  simp only [meaning, values_enc h _ values_len]
  rfl

/-! ## The bodies -/

set_option maxRecDepth 8000 in
theorem connectResult_body (h : RtmpHook) (t : Nat) : (RtmpReply.connectResult t).message h =
    some ⟨3, 20, 0, [str "_result", .atom (.num t), .obj [field "fmsVer" "FMS/3,5,1,525", (ascii "capabilities", thirtyOne)],
      .obj [field "level" "status", field "code" "NetConnection.Connect.Success"]].flatMap encV⟩ := by
  rfl

theorem result_body (h : RtmpHook) (t : Nat) : (RtmpReply.result t 1).message h = some ⟨3, 20, 0, [str "_result", .atom (.num t), .atom .null, one].flatMap encV⟩ ∧
    (RtmpReply.result t 0).message h = some ⟨3, 20, 0, [str "_result", .atom (.num t), .atom .null, zero].flatMap encV⟩ := by
  constructor <;> rfl

set_option maxRecDepth 8000 in
theorem playStart_body (h : RtmpHook) {t : Nat} {n : Int} (ht : Double.toInt t = some n) : (RtmpReply.playStart t).message h = some ⟨3, 20, 0, [str "onStatus", zero, .atom .null,
    .obj [field "level" "status", field "code" "NetStream.Play.Start", field "description" "Start live"]].flatMap encV⟩ := by
  simp only [RtmpReply.message, ht, Option.bind_eq_bind, Option.bind_some]
  rfl

set_option maxRecDepth 8000 in
theorem publishStart_body (h : RtmpHook) {t : Nat} {n : Int} (ht : Double.toInt t = some n) : (RtmpReply.publishStart t).message h =
    some ⟨3, 20, 0, [str "onStatus", .atom (.num (Double.ofInt n)), .atom .null,
      .obj [field "level" "status", field "code" "NetStream.Publish.Start", field "description" "Start publishing"]].flatMap encV⟩ := by
  simp only [RtmpReply.message, ht, Option.bind_eq_bind, Option.bind_some]
  rfl

theorem sampleAccess_body (h : RtmpHook) : RtmpReply.sampleAccess.message h =
    some ⟨5, 18, 0, [str "|RtmpSampleAccess", .atom (.bool true), .atom (.bool true)].flatMap encV⟩ := by
  rfl

/-! ## Doubles -/

theorem holds_cases {n : Nat} {e f : Nat} (hn : n ≤ 2 ^ 31) (hf : f < 2 ^ 52) (he : (2 ^ 52 + f) * 2 ^ e = n * 2 ^ 1075) :
    ∃ k, e = 1023 + k ∧ k ≤ 31 ∧ (2 ^ 52 + f) * 2 ^ k = n * 2 ^ 52 ∧ 2 ^ 52 + f = n * 2 ^ (52 - k) ∧ Nat.log2 n = k ∧ 0 < n := by
  have hpos : 0 < n := by
    rcases Nat.eq_zero_or_pos n with h | h
    · rw [h, Nat.zero_mul] at he
      have : 0 < (2 ^ 52 + f) * 2 ^ e := Nat.mul_pos (by omega) (Nat.two_pow_pos e)
      omega
    · exact h
  have h1 : 1023 ≤ e := by
    apply Nat.le_of_not_lt
    intro hlt
    have a1 : (2 ^ 52 + f) * 2 ^ e < 2 ^ 53 * 2 ^ 1022 :=
      Nat.mul_lt_mul_of_lt_of_le (by omega) (Nat.pow_le_pow_right (by decide) (by omega)) (Nat.two_pow_pos _)
    have a2 : 1 * 2 ^ 1075 ≤ n * 2 ^ 1075 := Nat.mul_le_mul_right _ hpos
    rw [← Nat.pow_add] at a1
    rw [← he, Nat.one_mul] at a2
    exact absurd (Nat.lt_of_le_of_lt a2 a1) (Nat.lt_irrefl _)
  obtain ⟨k, rfl⟩ := Nat.exists_eq_add_of_le h1
  have h2 : (2 ^ 52 + f) * 2 ^ k = n * 2 ^ 52 := by
    rw [Nat.pow_add, show (1075 : Nat) = 1023 + 52 from rfl, Nat.pow_add, Nat.mul_left_comm, Nat.mul_left_comm n] at he
    exact Nat.eq_of_mul_eq_mul_left (Nat.two_pow_pos 1023) he
  have h3 : k ≤ 31 := by
    apply Nat.le_of_not_lt
    intro hlt
    have a1 : 2 ^ 52 * 2 ^ 32 ≤ (2 ^ 52 + f) * 2 ^ k := Nat.mul_le_mul (by omega) (Nat.pow_le_pow_right (by decide) hlt)
    rw [h2] at a1
    omega
  have h4 : 2 ^ 52 + f = n * 2 ^ (52 - k) := by
    rw [show (2 : Nat) ^ 52 = 2 ^ (52 - k) * 2 ^ k by rw [← Nat.pow_add]; congr 1; omega, ← Nat.mul_assoc] at h2
    rw [show (2 : Nat) ^ 52 = 2 ^ (52 - k) * 2 ^ k by rw [← Nat.pow_add]; congr 1; omega]
    exact Nat.eq_of_mul_eq_mul_right (Nat.two_pow_pos k) h2
  refine ⟨k, rfl, h3, h2, h4, ?_, hpos⟩
  rw [Nat.log2_eq_iff (by omega)]
  have h5 : (2 : Nat) ^ 52 = 2 ^ k * 2 ^ (52 - k) := by rw [← Nat.pow_add]; congr 1; omega
  have h6 : (2 : Nat) ^ 53 = 2 ^ (k + 1) * 2 ^ (52 - k) := by rw [← Nat.pow_add]; congr 1; omega
  constructor
  · apply Nat.le_of_mul_le_mul_right (c := 2 ^ (52 - k)) ?_ (Nat.two_pow_pos _)
    rw [← h4, ← h5]; omega
  · apply Nat.lt_of_mul_lt_mul_right (a := 2 ^ (52 - k))
    rw [← h4, ← h6]; omega

/-- An integer of type `int` goes through unchanged. -/
theorem holds_int {b : Nat} {x : Int} (h : Holds b x) (h1 : -2 ^ 31 ≤ x) (h2 : x < 2 ^ 31) : Double.toInt b = some x ∧ Double.ofInt x = b := by
  cases h with
  | zero => exact ⟨rfl, rfl⟩
  | pos hf he =>
    rename_i e f n
    obtain ⟨k, rfl, k1, k2, k3, k4, k5⟩ := holds_cases (by omega) hf he
    constructor
    · unfold Double.toInt
      have a1 : ((1023 + k) * 2 ^ 52 + f) / 2 ^ 63 % 2 = 0 := by omega
      have a2 : ((1023 + k) * 2 ^ 52 + f) / 2 ^ 52 % 2 ^ 11 = 1023 + k := by omega
      have a3 : ((1023 + k) * 2 ^ 52 + f) % 2 ^ 52 = f := by omega
      simp only [a1, a2, a3]
      rw [if_neg (by omega), if_neg (by omega), Nat.add_sub_cancel_left, k2, Nat.mul_div_cancel _ (by decide), if_neg (by decide), if_pos (by omega)]
    · unfold Double.ofInt
      simp only [Int.natAbs_natCast, k4]
      rw [if_neg (by omega), if_neg (by omega), ← k3]
      omega
  | neg hf he =>
    rename_i e f n
    obtain ⟨k, rfl, k1, k2, k3, k4, k5⟩ := holds_cases (by omega) hf he
    constructor
    · unfold Double.toInt
      have a1 : (2 ^ 63 + (1023 + k) * 2 ^ 52 + f) / 2 ^ 63 % 2 = 1 := by omega
      have a2 : (2 ^ 63 + (1023 + k) * 2 ^ 52 + f) / 2 ^ 52 % 2 ^ 11 = 1023 + k := by omega
      have a3 : (2 ^ 63 + (1023 + k) * 2 ^ 52 + f) % 2 ^ 52 = f := by omega
      simp only [a1, a2, a3]
      rw [if_neg (by omega), if_neg (by omega), Nat.add_sub_cancel_left, k2, Nat.mul_div_cancel _ (by decide), if_pos trivial, if_pos (by omega)]
    · unfold Double.ofInt
      simp only [Int.natAbs_neg, Int.natAbs_natCast, k4]
      rw [if_neg (by omega), if_pos (by omega), ← k3]
      omega

/-! ## Several messages -/

/-- These replies can be sent, and say this. -/
def Tells (h : RtmpHook) (rs : List RtmpReply) (ss : List Says) : Prop :=
  ∃ out, RtmpReply.messages h rs = some out ∧ out.map meaning = ss.map some

theorem Tells.nil (h : RtmpHook) : Tells h [] [] := ⟨[], rfl, rfl⟩

theorem Tells.cons {h : RtmpHook} {r : RtmpReply} {rs : List RtmpReply} {s : Says} {ss : List Says} {m : RtmpOut} (h1 : r.message h = some m) (h2 : meaning m = some s)
    (h3 : Tells h rs ss) : Tells h (r :: rs) (s :: ss) := by
  obtain ⟨out, a, b⟩ := h3
  exact ⟨m :: out, by simp [RtmpReply.messages, h1, a], by simp [h2, b]⟩

theorem Tells.append {h : RtmpHook} {rs rs' : List RtmpReply} {ss ss' : List Says} (h1 : Tells h rs ss) (h2 : Tells h rs' ss') : Tells h (rs ++ rs') (ss ++ ss') := by
  obtain ⟨out, a, b⟩ := h1
  induction rs generalizing out ss with
  | nil =>
    cases a
    cases ss with
    | nil => exact h2
    | cons s ss => cases b
  | cons r rs ih =>
    simp only [RtmpReply.messages, Option.bind_eq_bind, Option.bind_eq_some_iff] at a
    obtain ⟨m, a1, o, a2, a3⟩ := a
    cases a3
    cases ss with
    | nil => cases b
    | cons s ss =>
      simp only [List.map_cons, List.cons.injEq] at b
      exact .cons a1 b.1 (ih o a2 b.2)

theorem int32_says {h : RtmpHook} {x : Int} {w : Nat} (hx : x = w) (hw : w < 2 ^ 32) : beVal (be 4 (FlvMuxer.low 32 x)) = w := by
  rw [beVal_be]
  unfold FlvMuxer.low
  subst hx
  omega

theorem tells_window {h : RtmpHook} {w : Nat} (hw : h.serverBW = w) (hw' : w < 2 ^ 32) : ∃ m, RtmpReply.ackWindow.message h = some m ∧ meaning m = some (.window w) :=
  ⟨_, rfl, congrArg (fun x => some (Says.window x)) (int32_says (h := h) hw hw')⟩

theorem tells_bandwidth {h : RtmpHook} {w : Nat} (hw : h.clientBW = w) (hw' : w < 2 ^ 32) :
    ∃ m, RtmpReply.peerBandwidth.message h = some m ∧ meaning m = some (.bandwidth w 2) :=
  ⟨_, rfl, congrArg (fun x => some (Says.bandwidth x 2)) (int32_says (h := h) hw hw')⟩

theorem small {s : String} (h : (ascii s).length < 65536) : ValOk (str s) := h

end Sps.RtmpMsgs
