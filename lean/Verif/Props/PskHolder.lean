import Verif.Props.OwnerHears

/-! # C118: a holder of the pre-shared key is at the other end -/

namespace ETls

open Spec Crypto

variable {V : Type}

namespace Spec

/-- A connection of somebody who knows pre-shared keys and acts as a server: the key it used, the ClientHello it saw, the
ServerHello it sent, the shared secret it computed, the messages it sent up to its Finished, and the fragments it sent after
the handshake. -/
structure HolderLife where
  psk : Bytes
  hello : Bytes
  sh : Bytes
  dhe : Bytes
  flight : Bytes
  sent : List Fragment

/-- The ClientHello is a handshake message and the fragments have a type. -/
structure HolderLife.Proper (l : HolderLife) : Prop where
  hello : ∃ ty body, body.length < 16777216 ∧ l.hello = handshake ty body
  sent : ∀ f ∈ l.sent, f.type ≠ 0

/-- The verify_data of the holder's Finished (RFC 8446 section 4.4.4). -/
def HolderLife.finished (S : Suite) (l : HolderLife) : Bytes :=
  verifyData S (serverHandshakeTraffic S (some l.psk) l.dhe (l.hello ++ l.sh)) (l.hello ++ l.sh ++ l.flight)

/-- ClientHello...server Finished, as the holder has it. -/
def HolderLife.traffic (S : Suite) (l : HolderLife) : Bytes := l.hello ++ l.sh ++ l.flight ++ finishedMsg (l.finished S)

/-- The holder's application secrets. -/
def HolderLife.clientSecret (S : Suite) (l : HolderLife) : Bytes := clientApplicationTraffic S (some l.psk) l.dhe (l.traffic S)
def HolderLife.serverSecret (S : Suite) (l : HolderLife) : Bytes := serverApplicationTraffic S (some l.psk) l.dhe (l.traffic S)

/-- The client, with the PSK `k`, and the holder are the two ends of one connection: they have the same PSK, ClientHello,
ServerHello, shared secret and server messages; and if the client took the Finished as the holder sent it, they have the same
application keys, what the client reads is a prefix of what the holder sent, unless a record is forged, and the holder gets what
the client's application writes.  (`rx` is the input of the whole connection, `room` the size of the write buffer.) -/
structure TwoEnds (S : Suite) (k : Bytes) (x : Session) (before : Bytes) (c' : Conn) (rx : Rx) (room : Nat)
    (l : HolderLife) : Prop where
  psk : k = l.psk
  hello : x.hello = l.hello
  serverHello : x.sh = l.sh
  flight : before = l.flight
  dhe : x.dhe = l.dhe
  keys : TookFinished x (l.finished S) → c'.ks.client.st = trafficState S (l.clientSecret S) ∧
    c'.ks.server.st = trafficState S (l.serverSecret S)
  reads : TookFinished x (l.finished S) → rx.Clean →
    NoForgeryIn S (writeKey S (l.serverSecret S)) (writeIv S (l.serverSecret S)) l.sent 0 c'.rx.bytes →
    ∀ ops, delivered (runReads S ops c'.rd).1 <+: dataOf l.sent
  writes : TookFinished x (l.finished S) → Reliable c'.tx → room < 65652 →
    HearsApp S (writeKey S (l.clientSecret S)) (writeIv S (l.clientSecret S)) c'

end Spec

/-- What the last Finished says about those who made it. -/
theorem C118_finished {S : Suite} (hS : S.Lawful) {H : Hash} (hu : UsesHash S H) (cfg : Config) (p : Provider V) (v : V)
    {k : Bytes} {ids : List Bytes} (hk : cfg.psk = some (k, ids)) {c c' : Conn}
    (hf : c.Fresh S) (hfit : HelloFits S cfg p) (h : Conn.open_ S cfg p v c = (.ok (), c')) :
    ∃ x, Established S cfg p v c x c' ∧ ∃ before fm vd after, x.msgs = before ++ (fm, .finished vd) :: after ∧
      noFinished after ∧ ∀ l : HolderLife, l.Proper → vd = l.finished S →
        (k = l.psk ∧ x.hello = l.hello ∧ x.sh = l.sh ∧ Session.bytesOf before = l.flight ∧ x.dhe = l.dhe) ∨
        Clash H H.len
          (serverFinishedInputs S H (some k) x.dhe (x.hello ++ x.sh) (x.hello ++ x.sh ++ Session.bytesOf before))
          (serverFinishedInputs S H (some l.psk) l.dhe (l.hello ++ l.sh) (l.hello ++ l.sh ++ l.flight)) := by
  obtain ⟨x, hx⟩ := open_session S hS cfg p v hf h
  obtain ⟨-, hb, hbl, he⟩ := hx.delimited hS hfit
  obtain ⟨before, fm, vd, after, e1, e2, -⟩ := hx.ending
  refine ⟨x, hx, before, fm, vd, after, e1, e2, fun l hl hvd => ?_⟩
  obtain ⟨ty, body, hl1, hl2⟩ := hl.hello
  have hv := hx.finished before fm vd after e1
  rw [hv, hk] at hvd
  rcases serverFinished_clash hu (hvd : _ = HolderLife.finished S l) with ⟨f1, f2, f3, f4⟩ | f
  · left
    have f5 : x.hello ++ x.sh = l.hello ++ l.sh := f3
    have f6 : x.hello = l.hello ∧ x.sh = l.sh := by
      rw [he, hl2] at f5 ⊢
      exact handshake_split hbl hl1 f5
    refine ⟨f1, f6.1, f6.2, ?_, f2⟩
    rw [f3] at f4
    exact List.append_cancel_left f4
  · exact .inr f

/-- **C118** `open` succeeds with a pre-shared key `k` on a new connection, with any verifier or none.  Then the client took a
last Finished, and whatever those who know pre-shared keys have done — `lives` are their connections —: nobody of them made
this Finished (a forgery), or one of their connections is the other end of the client's, made with the same key, or else two
different strings are exhibited that have the same hash. -/
theorem C118_holder {S : Suite} (hS : S.Lawful) {H : Hash} (hu : UsesHash S H) (cfg : Config) (p : Provider V) (v : V)
    {k : Bytes} {ids : List Bytes} (hk : cfg.psk = some (k, ids)) {rx : Rx} {tx : Tx} {rb wb : Bytes} {c c' : Conn}
    (hn : Conn.new S rx tx rb wb = .ok c) (hfit : HelloFits S cfg p) (h : Conn.open_ S cfg p v c = (.ok (), c')) :
    ∃ x, Established S cfg p v c x c' ∧ ∃ before fm vd after, x.msgs = before ++ (fm, .finished vd) :: after ∧
      noFinished after ∧ ∀ lives : HolderLife → Prop, (∀ l, lives l → l.Proper) →
        (∀ l, lives l → vd ≠ l.finished S) ∨ ∃ l, lives l ∧
          (TwoEnds S k x (Session.bytesOf before) c' rx wb.length l ∨
            Clash H H.len
              (serverFinishedInputs S H (some k) x.dhe (x.hello ++ x.sh) (x.hello ++ x.sh ++ Session.bytesOf before))
              (serverFinishedInputs S H (some l.psk) l.dhe (l.hello ++ l.sh) (l.hello ++ l.sh ++ l.flight))) := by
  obtain ⟨x, hx, before, fm, vd, after, e1, e2, e3⟩ := C118_finished hS hu cfg p v hk (Conn.new_fresh S hn).1 hfit h
  refine ⟨x, hx, before, fm, vd, after, e1, e2, fun lives hl => ?_⟩
  by_cases hm : ∀ l, lives l → vd ≠ l.finished S
  · exact .inl hm
  push Not at hm
  obtain ⟨l, h1, h2⟩ := hm
  refine .inr ⟨l, h1, ?_⟩
  rcases e3 l (hl l h1) h2 with ⟨f1, f2, f3, f4, f5⟩ | f
  · left
    have hkeys : TookFinished x (l.finished S) → c'.ks.client.st = trafficState S (l.clientSecret S) ∧
        c'.ks.server.st = trafficState S (l.serverSecret S) := by
      rintro ⟨b, a, g1, g2, g3⟩
      obtain ⟨rfl, rfl, rfl, rfl⟩ := lastFinished_unique (e1.symm.trans g1) e2 g2
      have htr : x.traffic = l.traffic S := by
        have e : x.tr0 ++ Session.bytesOf before ++ finishedMsg (l.finished S) = l.traffic S := by
          rw [Session.tr0, f2, f3, f4]; rfl
        obtain ⟨a, fm, vd, b, k1, k2, k3⟩ := hx.ending
        obtain ⟨rfl, rfl, rfl, rfl⟩ := lastFinished_unique (e1.symm.trans k1) e2 k2
        rcases k3 with ⟨-, -, k4⟩ | ⟨k4, k5, -⟩
        · rw [k4, e]
        · rcases g3 with g3 | rfl
          · exact absurd g3 k4
          · rw [k5, e1, ← e]
            simp [Session.bytesOf]
      rw [hx.clientKeys, hx.serverKeys, htr, f5, hk]
      simp only [Option.map_some, f1]
      exact ⟨rfl, rfl⟩
    refine ⟨f1, f2, f3, f4, f5, hkeys, fun ht hclean hf ops => ?_, fun ht hr hw => ?_⟩
    · refine C21_stream S hS cfg p v hn hclean h l.sent (hl l h1).sent ?_ ops
      rw [(hkeys ht).2]
      exact hf
    · have := C117_hears hS cfg p hfit.random v hn h hr hw
      rw [(hkeys ht).1] at this
      exact this
  · exact .inr f

/-- **C118, strangers** Somebody who used another key, or none, has not made the Finished that a client with the key `k` took,
unless two different strings are exhibited that have the same hash.  (A PSK of zeros, as long as a hash, is the same as none.) -/
theorem C118_stranger {S : Suite} (hS : S.Lawful) {H : Hash} (hu : UsesHash S H) (cfg : Config) (p : Provider V) (v : V)
    {k : Bytes} {ids : List Bytes} (hk : cfg.psk = some (k, ids)) {c c' : Conn} (hf : c.Fresh S)
    (h : Conn.open_ S cfg p v c = (.ok (), c')) :
    ∃ x, Established S cfg p v c x c' ∧ ∀ before fm vd after, x.msgs = before ++ (fm, .finished vd) :: after →
      ∀ (psk : Option Bytes) (dhe tr msgs : Bytes), psk.getD (zeros S) ≠ k →
        vd = verifyData S (serverHandshakeTraffic S psk dhe tr) msgs →
        Clash H H.len
          (serverFinishedInputs S H (some k) x.dhe (x.hello ++ x.sh) (x.hello ++ x.sh ++ Session.bytesOf before))
          (serverFinishedInputs S H psk dhe tr msgs) := by
  obtain ⟨x, hx⟩ := open_session S hS cfg p v hf h
  refine ⟨x, hx, fun before fm vd after e1 psk dhe tr msgs hne hvd => ?_⟩
  have hv := hx.finished before fm vd after e1
  rw [hv, hk] at hvd
  rcases serverFinished_clash hu (hvd : verifyData S (serverHandshakeTraffic S (some k) x.dhe (x.hello ++ x.sh)) _ = _) with
    ⟨f1, -⟩ | f
  · exact absurd f1.symm hne
  · exact f

/-- Two connections with one ClientHello have one random. -/
theorem hello_random {V₁ V₂ : Type} {S : Suite} (hs : Shipped S) {cfg₁ cfg₂ : Config} {p₁ : Provider V₁} {p₂ : Provider V₂} {v₁ : V₁} {v₂ : V₂}
    {c₁ c₁' c₂ c₂' : Conn} {x₁ x₂ : Session} (h₁ : Established S cfg₁ p₁ v₁ c₁ x₁ c₁') (h₂ : Established S cfg₂ p₂ v₂ c₂ x₂ c₂')
    (hfit₁ : HelloFits S cfg₁ p₁) (hfit₂ : HelloFits S cfg₂ p₂) (h : x₁.hello = x₂.hello) : p₁.random = p₂.random := by
  have hS := C95_lawful S hs
  obtain ⟨m₁, -⟩ := h₁.delimited hS hfit₁
  obtain ⟨m₂, -⟩ := h₂.delimited hS hfit₂
  have e₁ := helloMsg_decodes hS hs.p256.2.2 cfg₁ p₁ hfit₁
  have e₂ := helloMsg_decodes hS hs.p256.2.2 cfg₂ p₂ hfit₂
  rw [← m₁, h, m₂, e₂] at e₁
  injection e₁ with e₁
  exact (congrArg ChMsg.random e₁).symm

/-- **C118, once** One connection of a holder is the other end of at most one connection of clients whose randoms differ: what a
holder did once cannot be used a second time.  So for the connections of the owner of a certificate's key (C115). -/
theorem C118_once {V₁ V₂ : Type} {S : Suite} (hs : Shipped S) {cfg₁ cfg₂ : Config} {p₁ : Provider V₁} {p₂ : Provider V₂} {v₁ : V₁} {v₂ : V₂}
    {c₁ c₁' c₂ c₂' : Conn} {x₁ x₂ : Session} (h₁ : Established S cfg₁ p₁ v₁ c₁ x₁ c₁') (h₂ : Established S cfg₂ p₂ v₂ c₂ x₂ c₂')
    (hfit₁ : HelloFits S cfg₁ p₁) (hfit₂ : HelloFits S cfg₂ p₂) (hne : p₁.random ≠ p₂.random) :
    (∀ k₁ k₂ b₁ b₂ rx₁ rx₂ n₁ n₂ l, ¬ (TwoEnds S k₁ x₁ b₁ c₁' rx₁ n₁ l ∧ TwoEnds S k₂ x₂ b₂ c₂' rx₂ n₂ l)) ∧
    ∀ k₁ k₂ b₁ b₂ r, ¬ (OtherEnd S k₁ x₁ b₁ c₁' r ∧ OtherEnd S k₂ x₂ b₂ c₂' r) :=
  ⟨fun _ _ _ _ _ _ _ _ _ h => hne (hello_random hs h₁ h₂ hfit₁ hfit₂ (h.1.hello.trans h.2.hello.symm)),
   fun _ _ _ _ _ h => hne (hello_random hs h₁ h₂ hfit₁ hfit₂ (h.1.hello.trans h.2.hello.symm))⟩

/-! ## Examples -/

/-- The configuration and provider of the recording with a pre-shared key. -/
def recPskCfg : Config := recCfg [.withPsk (toBE 16 0x000102030405060708090a0b0c0d0e0f) [ascii "Client_identity"]]
def recPskProvider : Provider Unit := (UnsecureProvider.new recRandom recSecret).provider (p256Lib derTags)

set_option maxRecDepth 100000 in
theorem recPsk_fits : HelloFits (aes128GcmSha256 false) recPskCfg recPskProvider :=
  ⟨by decide +kernel, (by intro ps h; cases h), by decide +kernel⟩

-- C118_holder: a connection with OpenSSL that used the key 00 01 … 0f: the hypotheses are met, and there is a life that made
-- the Finished
example : ∃ k ids rb wb c c' x, recPskCfg.psk = some (k, ids) ∧ k = toBE 16 0x000102030405060708090a0b0c0d0e0f ∧
    Conn.new (aes128GcmSha256 false) [.data recRx3] ⟨[], []⟩ rb wb = .ok c ∧
    Conn.open_ (aes128GcmSha256 false) recPskCfg recPskProvider () c = (.ok (), c') ∧
    Established (aes128GcmSha256 false) recPskCfg recPskProvider () c x c' ∧
    ∃ before fm vd after, x.msgs = before ++ (fm, .finished vd) :: after ∧
      ∃ l : HolderLife, l.Proper ∧ l.psk = k ∧ vd = l.finished (aes128GcmSha256 false) ∧
        (TwoEnds (aes128GcmSha256 false) k x (Session.bytesOf before) c' [.data recRx3] wb.length l ∨
          Clash hSha256 hSha256.len
            (serverFinishedInputs (aes128GcmSha256 false) hSha256 (some k) x.dhe (x.hello ++ x.sh)
              (x.hello ++ x.sh ++ Session.bytesOf before))
            (serverFinishedInputs (aes128GcmSha256 false) hSha256 (some l.psk) l.dhe (l.hello ++ l.sh)
              (l.hello ++ l.sh ++ l.flight))) := by
  obtain ⟨rb, wb, c, c', h1, h2, -⟩ := recRun_new openssl_psk
  have hs : Shipped (aes128GcmSha256 false) := ⟨false, .inl rfl⟩
  have hu : UsesHash (aes128GcmSha256 false) hSha256 := ⟨rfl, by decide, by decide, by decide, rfl, rfl, rfl, rfl⟩
  obtain ⟨x, hx, before, fm, vd, after, e1, -, e3⟩ := C118_holder (C95_lawful _ hs) hu recPskCfg recPskProvider () (k := toBE 16 0x000102030405060708090a0b0c0d0e0f)
    (ids := [ascii "Client_identity"]) (by decide +kernel) h1 recPsk_fits h2
  obtain ⟨-, body, hl, he⟩ := hx.delimited (C95_lawful _ hs) recPsk_fits
  have hv := hx.finished before fm vd after e1
  have hp : (⟨toBE 16 0x000102030405060708090a0b0c0d0e0f, x.hello, x.sh, x.dhe, Session.bytesOf before, []⟩ : HolderLife).Proper :=
    ⟨⟨1, body, hl, he⟩, by simp⟩
  have hv' : vd = (⟨toBE 16 0x000102030405060708090a0b0c0d0e0f, x.hello, x.sh, x.dhe, Session.bytesOf before, []⟩ : HolderLife).finished
      (aes128GcmSha256 false) := by
    rw [hv]
    rfl
  refine ⟨_, [ascii "Client_identity"], rb, wb, c, c', x, by decide +kernel, rfl, h1, h2, hx, before, fm, vd, after, e1, _, hp, rfl, hv', ?_⟩
  rcases e3 (· = _) (fun l hl => hl ▸ hp) with e | ⟨l, rfl, e⟩
  · exact absurd hv' (e _ rfl)
  · exact e

end ETls
