import Verif.Props.OpenUnique

/-! # C43: alerts after the ServerHello, in general -/

namespace ETls

open Spec

variable (S : Suite) {V : Type}

namespace Spec

/-- The client has received some records of the server's flight (none of them with a Finished that it accepted) and still
waits: number of the next protected record, bytes not read yet, and what the client knows, before and after. -/
inductive Passes (p : Provider V) (secret : Bytes) (cap : Nat) : Nat → Bytes → Flight V → Nat → Bytes → Flight V → Prop where
  | done (seq : Nat) (input : Bytes) (f : Flight V) : Passes p secret cap seq input f seq input f
  | more (seq seq1 seq2 : Nat) (input : Bytes) (f f1 f2 : Flight V) (t : UInt8) (hdr body rest left : Bytes)
      (hf : Framed cap input (.record t hdr body rest)) (hr : FlightStep S p secret seq f t hdr body (.ok f1) seq1)
      (hw : f1.after = .waiting) (hm : Passes p secret cap seq1 rest f1 seq2 left f2) :
      Passes p secret cap seq input f seq2 left f2

/-- The next record is an alert: in the clear, or protected under the server's handshake key. -/
inductive AlertNext (secret : Bytes) (cap seq : Nat) (input : Bytes) (a : AlertLevel × AlertDescription) : Prop where
  | clear (hdr body rest : Bytes) (hf : Framed cap input (.record 21 hdr body rest)) (ha : AlertRead body (.ok a))
  | protected_ (hdr body rest content : Bytes) (padding : Nat) (hf : Framed cap input (.record 23 hdr body rest))
      (ho : S.open_ (writeKey S secret) (nonce (writeIv S secret) seq) hdr body = some (Fragment.inner ⟨21, content, padding⟩))
      (ha : AlertRead content (.ok a))

end Spec

theorem passes_then_alert {p : Provider V} {secret : Bytes} {cap seq seq' : Nat} {input rest : Bytes} {f f' : Flight V}
    (h : Passes S p secret cap seq input f seq' rest f') {a : AlertLevel × AlertDescription}
    (ha : AlertNext S secret cap seq' rest a) :
    Flights S p secret cap seq input f (.refused (some .invalidRecord)) [] := by
  induction h with
  | done seq input f =>
    cases ha with
    | clear hdr body rest hf ha =>
      exact .stop seq seq input f 21 hdr body rest _ hf (.alert hdr body a ha) (by intro f1 h; cases h)
    | protected_ hdr body rest content padding hf ho ha =>
      exact .stop seq seq input f 23 hdr body rest _ hf
        (.refused hdr body _ _ ho (.alert content padding a ha) (by intro f1 h; cases h)) (by intro f1 h; cases h)
  | more seq seq1 seq2 input f f1 f2 t hdr body rest left hf hr hw hm ih =>
    exact .more seq seq1 input f f1 t hdr body rest [] _ hf hr hw (ih ha)

/-- **C43, refuted in general** Whatever alert the server sends after its ServerHello, before the client has accepted its
Finished — in the clear or protected, directly or after any messages the client has accepted — `open` fails with
`InvalidRecord`: neither level nor description reaches the application, and the client has sent nothing but its ClientHello
by then. -/
theorem C43_later (hS : S.Lawful) (cfg : Config) (p : Provider V) (v v0 : V) {c : Conn} (hf : c.Fresh S) (hclean : c.rx.Clean)
    (hrel : Reliable c.tx) (hroom : Roomy S cfg p c.wb.buffer.length) (hn : Named p v cfg.serverName (.ok v0))
    {t : UInt8} {hdr body rest sh dhe secret left : Bytes} {seq : Nat} {f : Flight V} {a : AlertLevel × AlertDescription}
    (hfr : Framed c.rr.buf.length c.rx.bytes (.record t hdr body rest)) (hh : HelloRecord S p.secret t body (.ok sh dhe))
    (hs : secret = serverHandshakeTraffic S (cfg.psk.map (·.1)) dhe (helloMsg S cfg p ++ sh))
    (hp : Passes S p secret c.rr.buf.length 0 rest ⟨helloMsg S cfg p ++ sh, none, v0, .waiting⟩ seq left f)
    (ha : AlertNext S secret c.rr.buf.length seq left a) :
    ∃ c', Conn.open_ S cfg p v c = (.err .invalidRecord, c') ∧ c'.opened = false ∧
      c'.tx.log = c.tx.log ++ sentRecords [plaintextRecord 22 [3, 1] (helloMsg S cfg p)] := by
  subst hs
  have h := C77_exact S hS cfg p v hf hclean hrel hroom
    (.flightRefused v0 t hdr body rest sh dhe [] _ hn hfr hh (passes_then_alert S hp ha))
  obtain ⟨y, told, h1, h2, h3, h4, h5⟩ := h
  have h2 : y = _ := h2
  rw [h2] at h1 h3
  cases h3 with
  | nothing e _ => exact ⟨_, Prod.ext h1 rfl, h5, by simpa using h4⟩

theorem framed_plain {cap : Nat} (t v w : UInt8) (body rest : Bytes) (ht : Known contentTypes t.toNat)
    (hn : body.length < 65536) (hc : body.length ≤ cap) :
    Framed cap (plaintextRecord t [v, w] body ++ rest) (.record t (header t v w body.length) body rest) := by
  have : plaintextRecord t [v, w] body ++ rest = header t v w body.length ++ body ++ rest := by
    simp [plaintextRecord, header]
  rw [this]
  exact .record t v w body rest ht hn hc

theorem alertNext_protect {S : Suite} (hS : S.Lawful) (secret : Bytes) (cap seq : Nat) (content rest : Bytes) (padding : Nat)
    (hn : content.length + padding + 17 ≤ cap) (hc : cap < 65536) {a : AlertLevel × AlertDescription}
    (ha : AlertRead content (.ok a)) :
    AlertNext S secret cap seq (protect S (writeKey S secret) (writeIv S secret) seq ⟨21, content, padding⟩ ++ rest) a := by
  have hl : (Fragment.inner ⟨21, content, padding⟩).length = content.length + padding + 1 := by
    simp [Fragment.inner]; omega
  have hl2 : ∀ k n x, (S.sealCt k n x (Fragment.inner ⟨21, content, padding⟩) ++
      S.sealTag k n x (Fragment.inner ⟨21, content, padding⟩)).length = (Fragment.inner ⟨21, content, padding⟩).length + 16 := by
    intro k n x
    rw [List.length_append, hS.sealCt_length, hS.sealTag_length]
    rfl
  refine .protected_ _ _ rest content padding ?_ (hS.open_seal _ _ (ciphertextHeader (Fragment.inner ⟨21, content, padding⟩).length) _) ha
  have h := Framed.record (cap := cap) 23 3 3 (S.sealCt (writeKey S secret) (nonce (writeIv S secret) seq)
    (ciphertextHeader (Fragment.inner ⟨21, content, padding⟩).length) (Fragment.inner ⟨21, content, padding⟩) ++
      S.sealTag (writeKey S secret) (nonce (writeIv S secret) seq)
    (ciphertextHeader (Fragment.inner ⟨21, content, padding⟩).length) (Fragment.inner ⟨21, content, padding⟩)) rest ⟨.applicationData, by decide⟩
    (by rw [hl2]; omega) (by rw [hl2]; omega)
  rw [hl2] at h
  exact h

theorem exSH_begins (rest : Bytes) : Begins toySuite.hashLen exSH rest (exSH.bytes ++ rest) := by
  refine ⟨⟨by decide, by decide, by decide, ⟨.tlsAes128GcmSha256, by decide⟩, by decide⟩, ⟨?_, by decide⟩, exSH.body.length,
    by decide, rfl⟩
  intro x hx t ht
  simp only [List.mem_cons, List.not_mem_nil, or_false] at hx
  rcases hx with rfl | rfl
  · obtain rfl : t = .supportedVersions := known_unique ht (by decide)
    exact ⟨by decide, show 2 ≤ 2 from Nat.le_refl _⟩
  · obtain rfl : t = .keyShare := known_unique ht (by decide)
    exact ⟨by decide, 23, exShare, [], ⟨.secp256r1, by decide⟩, by decide, by decide⟩

theorem exSH_hello : HelloRecord toySuite exProv.secret 22 exSH.bytes (.ok exSH.bytes exDhe) := by
  have h := HelloRecord.serverHello (S := toySuite) (secret := exProv.secret) exSH exSH.bytes [] exShare exDhe (exSH_begins [])
    ⟨0x0303, List.replicate 32 7, [], 0x1301, 0, [⟨43, [3, 4]⟩], .secp256r1, 23, [], [], by decide, by decide, by decide,
      by decide⟩ (by decide +kernel)
  rw [List.append_nil] at h
  exact h

-- after the ServerHello a change_cipher_spec record and a protected alert (handshake_failure)
example (secret bytes : Bytes)
    (hs : secret = serverHandshakeTraffic toySuite none exDhe (helloMsg toySuite exCfg exProv ++ exSH.bytes))
    (hb : bytes = plaintextRecord 22 [3, 3] exSH.bytes ++ (plaintextRecord 20 [3, 3] [1] ++
      (protect toySuite (writeKey toySuite secret) (writeIv toySuite secret) 0 ⟨21, [2, 40], 0⟩ ++ []))) :
    ∃ c', Conn.open_ toySuite exCfg exProv () (exNew 400 [.data bytes]) = (.err .invalidRecord, c') ∧ c'.opened = false := by
  have hlen : exSH.bytes.length < 400 := by decide +kernel
  have hcap := exNew_size 400 [.data bytes]
  generalize hal : protect toySuite (writeKey toySuite secret) (writeIv toySuite secret) 0 ⟨21, [2, 40], 0⟩ ++ [] = al at hb
  have h1 := framed_plain (cap := 400) 22 3 3 exSH.bytes (plaintextRecord 20 [3, 3] [1] ++ al) ⟨.handshake, by decide⟩
    (by omega) (by omega)
  have h2 : Passes toySuite exProv secret 400 0 (plaintextRecord 20 [3, 3] [1] ++ al)
      ⟨helloMsg toySuite exCfg exProv ++ exSH.bytes, none, (), .waiting⟩ 0 al _ :=
    .more 0 0 0 _ _ _ _ 20 _ [1] _ _ (framed_plain 20 3 3 [1] _ ⟨.changeCipherSpec, by decide⟩ (by decide)
      (by decide)) (.changeCipherSpec _ _) rfl (.done _ _ _)
  obtain ⟨c', h3, h4, -⟩ := C43_later toySuite toySuite_lawful exCfg exProv () () (exNew_fresh 400 [.data bytes] (by decide))
    (exClean (by rw [hb]; simp [plaintextRecord])) (by intro a ha; cases ha) (by rw [exNew_room]; exact exRoomy) (.noVerifier _ rfl)
    (by rw [hcap, exNew_bytes, hb]; exact h1) exSH_hello hs (by rw [hcap]; exact h2)
    (a := (.fatal, .handshakeFailure)) (by
      rw [hcap, ← hal]
      exact alertNext_protect toySuite_lawful _ 400 0 [2, 40] [] 0 (by decide) (by decide) (.ok .fatal .handshakeFailure 2 40 [] (by decide) (by decide)))
  exact ⟨c', h3, h4⟩

end ETls
