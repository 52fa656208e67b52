import Verif.Props.OpenUnique

/-! # What a server can make `open` send (C141)

However many records and messages the server sends, `open` sends a handful of records. -/

namespace ETls

open Spec

variable (S : Suite) {V : Type}

theorem ciphertextRecords_count (key iv : Bytes) (fs : List (UInt8 × Bytes)) : ∀ seq,
    (ciphertextRecords S key iv seq fs).length = fs.length := by
  induction fs with
  | nil => exact fun _ => rfl
  | cons f fs ih => exact fun seq => by simp only [ciphertextRecords, List.length_cons, ih]

theorem handshakeRecords_count (key iv : Bytes) (seq : Nat) (ms : List Bytes) :
    (handshakeRecords S key iv seq ms).length = ms.length := by
  rw [handshakeRecords, ciphertextRecords_count, List.length_map]

/-- The client answers with at most two messages, with none if it was not asked for a certificate. -/
theorem replies_count {p : Provider V} {f : Flight V} {r : Reply} (h : Replies S p f r) :
    match r with
    | .done ms _ => ms.length ≤ 2
    | .error ms _ => ms.length ≤ 1
    | .abort ms => ms.length ≤ 1 := by
  cases h <;> simp

/-- How many records are sent, by how `open` ends. -/
theorem opens_count {p : Provider V} {v : V} {name psk : Option Bytes} {hello input : Bytes} {cap : Nat} {e : OpenEnd}
    (h : Opens S p v name psk hello cap input e) :
    match e with
    | .opened sent _ _ _ => 2 ≤ sent.length ∧ sent.length ≤ 4
    | .error sent _ => sent.length ≤ 3
    | .refusal sent _ => sent.length = 1
    | .abort sent => sent.length ≤ 2 := by
  cases h with
  | badName => simp
  | nameAbort => simp
  | noRecord => simp
  | noHello => simp
  | flightError => simp
  | flightRefused => simp
  | flightAbort => simp
  | replyError v0 t hdr body rest sh dhe left secret f ms e hn hf hh hs hr hc =>
    have := replies_count S hr
    simp only [List.length_cons, ciphertextRecords_count, List.length_append, List.length_map, List.length_nil] at this ⊢
    omega
  | replyAbort v0 t hdr body rest sh dhe left secret f ms hn hf hh hs hr hc =>
    have := replies_count S hr
    simp only [List.length_cons, handshakeRecords_count] at this ⊢
    omega
  | opened v0 t hdr body rest sh dhe left secret tr f ms hn hf hh hs hr hc =>
    have := replies_count S hr
    simp only [List.length_cons, handshakeRecords_count, List.length_append, List.length_nil] at this ⊢
    omega

/-- C141: whatever the server sends, `open` sends at most four records if it succeeds and at most three if not, each
followed by one flush of the transport. -/
theorem C141_open (hS : S.Lawful) (cfg : Config) (p : Provider V) (v : V) {c : Conn} (hf : c.Fresh S) (hclean : c.rx.Clean)
    (hrel : Reliable c.tx) (hroom : Roomy S cfg p c.wb.buffer.length) :
    ∃ sent : List Bytes, (Conn.open_ S cfg p v c).2.tx.log = c.tx.log ++ sent.flatMap (fun r => [.wrote r, .flushed]) ∧
      ((Conn.open_ S cfg p v c).1 = .ok () → 2 ≤ sent.length ∧ sent.length ≤ 4) ∧
      ((Conn.open_ S cfg p v c).1 ≠ .ok () → sent.length ≤ 3) := by
  obtain ⟨e, h1, h2⟩ := C77_open S hS cfg p v hf hclean hrel hroom
  have hc := opens_count S h1
  cases e with
  | opened sent dhe t rest =>
    obtain ⟨a1, -, a2, -⟩ := h2
    exact ⟨sent, a2, fun _ => hc, fun h => absurd a1 h⟩
  | error sent z =>
    obtain ⟨y, a1, -, a2, -⟩ := h2
    exact ⟨sent, a2, fun h => (by rw [a1] at h; cases h), fun _ => hc⟩
  | refusal sent z =>
    obtain ⟨y, told, a1, -, a3, a2, -⟩ := h2
    refine ⟨sent ++ told, a2, fun h => (by rw [a1] at h; cases h), fun _ => ?_⟩
    have hc : sent.length = 1 := hc
    cases a3 <;> simp [hc]
  | abort sent =>
    obtain ⟨a1, a2⟩ := h2
    have hc : sent.length ≤ 2 := hc
    exact ⟨sent, a2, fun h => (by rw [a1] at h; cases h), fun _ => by omega⟩

/-! ## Examples -/

-- C141_open: a client that is not asked for a certificate sends two records, ClientHello and Finished
set_option maxRecDepth 20000 in
example : (wrote (Conn.open_ toySuite exCfg exProv () (exNew 400 [.data (exServer exCfg exSH exMin)])).2.tx.log).length = 2 := by
  decide +kernel

example : ∃ sent : List Bytes, sent.length ≤ 4 ∧
    (Conn.open_ toySuite exCfg exProv () (exNew 400 [.data (exServer exCfg exSH exMin)])).2.tx.log =
      [] ++ sent.flatMap (fun r => [.wrote r, .flushed]) := by
  obtain ⟨sent, h1, h2, -⟩ := C141_open toySuite toySuite_lawful exCfg exProv ()
    (c := exNew 400 [.data (exServer exCfg exSH exMin)]) (exNew_fresh _ _ (by decide)) (exClean (by decide +kernel))
    (by intro a ha; cases ha) (by rw [exNew_room]; exact exRoomy)
  exact ⟨sent, (h2 exMin_ok).2, h1⟩

-- and one record if the server answers with an alert, whatever follows
set_option maxRecDepth 20000 in
example : (wrote (Conn.open_ toySuite exCfg exProv () (exNew 400 [.data [21, 3, 3, 0, 2, 2, 40, 9]])).2.tx.log).length = 1 := by
  decide +kernel

-- both bounds are reached: a client with a certificate sends four records, three if its private key cannot be read
set_option maxRecDepth 20000 in
example : (wrote (Conn.open_ toySuite exCfg ((exUnsecure (some [1])).provider toyP256) () exAsking).2.tx.log).length = 4 ∧
    (wrote (Conn.open_ toySuite exCfg ((exUnsecure none).provider toyP256) () exAsking).2.tx.log).length = 3 := by
  decide +kernel

end ETls
