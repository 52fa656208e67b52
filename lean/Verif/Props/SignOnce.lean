import Verif.Proofs.SignRun
import Verif.Props.SameHandshake

/-! # C119: the client's private key signs only the client's own handshake -/

namespace ETls

open Spec Crypto

variable {V : Type}

namespace Spec

/-- The handshake `x` of a client on the input `c.rx` has come to the point where the client signs: the ClientHello is the
client's own, the server's messages came protected with the keys of this handshake, among them a CertificateRequest followed by
a Finished with the right verify_data, the verifier, if there is one, accepted what the server sent, and the client has sent
its certificate and nothing else. -/
structure SignsFor (S : Suite) (cfg : Config) (p : Provider V) (v : V) (c : Conn) (x : Session) : Prop where
  hello : ∃ binders, x.hello = (expectedHello cfg S.codePoint p.random (S.pubKey p.secret) binders).bytes
  received : x.Received S (cfg.psk.map (·.1)) p.secret
  bytes : x.received <+: c.rx.bytes
  finished : ∃ a fm vd b, x.msgs = a ++ (fm, .finished vd) :: b ∧ lastRequest a ≠ none ∧
    vd = verifyData S (x.serverSecret S (cfg.psk.map (·.1))) (x.tr0 ++ Session.bytesOf a)
  verifier : ∀ ops, p.verifier = some ops → ∃ v', verifierRun ops x.tr0 x.msgs (hostVst cfg p v) = (.ok (), v')
  certificate : ∃ ctx cert, lastRequest x.msgs = some ctx ∧ p.clientCert = some (.x509 cert) ∧
    x.clientMsgs = [certificateMsg ctx [cert]]

end Spec

/-- At the signature. -/
theorem signsFor (S : Suite) (hS : S.Lawful) (cfg : Config) (p : Provider V) (v : V) {c : Conn} (hf : c.Fresh S) {n : Nat}
    {s : HSt V} (h : HsSteps S cfg p n .clientHello ⟨c, ⟨none, none, none, hostVst cfg p v⟩⟩ .clientCertVerify s) :
    ∃ x : Session, SignsFor S cfg p v c x ∧ s.c.ks.server.transcript = x.beforeFinished := by
  cases SignAt.steps S hS cfg p hf h (.early _ _ (.inl rfl) (.start _ rfl) rfl rfl) with
  | early _ _ hst => simp at hst
  | server _ _ _ _ _ _ _ _ _ hst => simp at hst
  | after _ _ hst => simp at hst
  | sign s hello shRecord sh exts dhe fl h0 h1 ctx cert hl hr hv took hc hp =>
    obtain ⟨rs, hm⟩ := ParsedAs.list S (hl.received.parsed S)
    obtain ⟨r, share, q1, q2, q3, q4, -⟩ := serverHello_share S hl.parsed hl.shared
    have hb := Matches.msgBytes S hm
    have hcar := hl.received.carries S hS (trafficState_iv S hS _)
    rw [Matches.bytes S hm] at hcar
    obtain ⟨t1, t2, t3, t4, t5⟩ := tookAll_wire S took hm
    refine ⟨⟨hello, shRecord, sh, share, dhe, fl.map Prod.fst, rs, [certificateMsg ctx [cert]], []⟩,
      ⟨?_, ⟨?_, ⟨r, q1, q2, q3⟩, q4, hcar, Matches.encoded S hm⟩, ?_, ?_, ?_, ⟨ctx, cert, ?_, hp, rfl⟩⟩, ?_⟩
    · obtain ⟨b, hb, _⟩ := hl.isHello
      exact ⟨b, hb⟩
    · obtain ⟨hdr, rh, junk, e1, e2, e3, e4⟩ := hl.serverHello
      obtain ⟨v1, v2, rfl, hlen⟩ := header_shape e1
      rw [e2, e3] at e4
      exact ⟨v1, v2, junk, by rw [← e3]; exact hlen, e4⟩
    · rw [hl.bytes]
      simp [Session.received, flightBytes, List.flatMap]
    · rcases t5 with ⟨_, j2, _⟩ | ⟨a, fm, vd, b, j1, j2, j3⟩
      · cases j2
      · refine ⟨a, fm, vd, b, j1, ?_, t2 a fm vd b j1⟩
        rcases j3 with ⟨_, m2, _⟩ | ⟨m1, _⟩
        · cases m2
        · simpa [hr] using m1
    · intro ops ho
      have := t4 ops ho
      simp only [hv] at this
      exact ⟨_, this⟩
    · simp only [hr, Option.or_none] at t3
      rw [← t3, hc]
    · rw [hl.transcript, hb]
      rfl

/-- `open` with two signers between which the loop does not distinguish. -/
theorem open_signing (S : Suite) (cfg : Config) (p : Provider V) (v : V) (c : Conn)
    (a b : Res TlsError ((Bytes → Option Bytes) × SignatureScheme))
    (h : ∀ fuel, openLoop S cfg (p.signing a) fuel .clientHello ⟨c, ⟨none, none, none, hostVst cfg p v⟩⟩ =
      openLoop S cfg (p.signing b) fuel .clientHello ⟨c, ⟨none, none, none, hostVst cfg p v⟩⟩) :
    Conn.open_ S cfg (p.signing a) v c = Conn.open_ S cfg (p.signing b) v c := by
  have key : openSt S cfg (p.signing a) ⟨c, ⟨none, none, none, v⟩⟩ = openSt S cfg (p.signing b) ⟨c, ⟨none, none, none, v⟩⟩ := by
    unfold openSt
    rcases hs : setHostname cfg (p.signing a) ⟨c, ⟨none, none, none, v⟩⟩ with ⟨r, s⟩
    have hs' : setHostname cfg (p.signing b) ⟨c, ⟨none, none, none, v⟩⟩ = (r, s) := hs
    cases r with
    | err e => rw [M.bind_err hs, M.bind_err hs']
    | panic => rw [M.bind_panic hs, M.bind_panic hs']
    | ok u =>
      rw [M.bind_ok hs, M.bind_ok hs', M.get_bind, M.get_bind]
      have e := setHostname_inv cfg (p.signing a) hs
      have e' : s = ⟨c, ⟨none, none, none, hostVst cfg p v⟩⟩ := e
      subst e'
      have hl := h (c.rx.size + 8)
      simp only
      rcases hr : openLoop S cfg (p.signing a) (c.rx.size + 8) .clientHello ⟨c, ⟨none, none, none, hostVst cfg p v⟩⟩ with ⟨r, s1⟩
      have hr' := hl.symm.trans hr
      cases r with
      | ok u => rw [M.bind_ok hr, M.bind_ok hr']
      | err e => rw [M.bind_err hr, M.bind_err hr']
      | panic => rw [M.bind_panic hr, M.bind_panic hr']
  unfold Conn.open_
  simp only [key]

/-- **C119** Whatever the server sends, in one `open`, successful or not, the client's private key is used for nothing or for one
content.  Either the outcome, the bytes sent and the state of the connection are the same for all signers, or there is one
handshake `x`, the client's own and with the server's part complete and verified, such that they depend on the signer only
through its signature of the content RFC 8446 prescribes for the CertificateVerify of `x`.  (Which of the two, and which
`x`, does not depend on the signer.) -/
theorem C119_once (S : Suite) (hS : S.Lawful) (cfg : Config) (p : Provider V) (v : V) {c : Conn} (hf : c.Fresh S) :
    (∀ a b, Conn.open_ S cfg { p with signer := a } v c = Conn.open_ S cfg { p with signer := b } v c) ∨
    ∃ x : Session, SignsFor S cfg p v c x ∧ ∀ (scheme : SignatureScheme) (sign sign' : Bytes → Option Bytes),
      sign (clientSigned S x.beforeFinished) = sign' (clientSigned S x.beforeFinished) →
      Conn.open_ S cfg { p with signer := .ok (sign, scheme) } v c =
        Conn.open_ S cfg { p with signer := .ok (sign', scheme) } v c := by
  by_cases h : ∃ n s, HsSteps S cfg p n .clientHello ⟨c, ⟨none, none, none, hostVst cfg p v⟩⟩ .clientCertVerify s
  · obtain ⟨n, s, hs⟩ := h
    obtain ⟨x, hx, htr⟩ := signsFor S hS cfg p v hf hs
    refine .inr ⟨x, hx, fun scheme sign sign' hag => open_signing S cfg p v c _ _ fun fuel => ?_⟩
    refine openLoop_signing S cfg p sign sign' scheme fuel _ _ fun m s1 h1 => ?_
    have h2 : HsSteps S cfg (p.signing p.signer) m .clientHello ⟨c, ⟨none, none, none, hostVst cfg p v⟩⟩ .clientCertVerify s1 :=
      h1.signing S _ _ (by decide)
    rw [h2.signature_unique S hs, htr]
    exact hag
  · refine .inl fun a b => open_signing S cfg p v c _ _ fun fuel => ?_
    refine openLoop_unsigned S cfg p a b fuel _ _ fun n s h1 => h ⟨n, s, ?_⟩
    exact h1.signing S a p.signer (by decide)

/-- **C119** Without a client certificate, or when the server never asked for one, nothing is signed. -/
theorem C119_unasked (S : Suite) (hS : S.Lawful) (cfg : Config) (p : Provider V) (v : V) {c : Conn} (hf : c.Fresh S)
    (h : (∀ cert, p.clientCert ≠ some (.x509 cert)) ∨
      ∀ x : Session, x.Received S (cfg.psk.map (·.1)) p.secret → x.received <+: c.rx.bytes → lastRequest x.msgs = none)
    (a b : Res TlsError ((Bytes → Option Bytes) × SignatureScheme)) :
    Conn.open_ S cfg { p with signer := a } v c = Conn.open_ S cfg { p with signer := b } v c := by
  rcases C119_once S hS cfg p v hf with h1 | ⟨x, hx, _⟩
  · exact h1 a b
  · obtain ⟨ctx, cert, e1, e2, _⟩ := hx.certificate
    rcases h with h | h
    · exact absurd e2 (h cert)
    · rw [h x hx.received hx.bytes] at e1
      cases e1

/-- **C119** A server that has not proved that it knows the handshake keys, by a Finished with the right verify_data, gets no
signature. -/
theorem C119_unproven (S : Suite) (hS : S.Lawful) (cfg : Config) (p : Provider V) (v : V) {c : Conn} (hf : c.Fresh S)
    (h : ∀ x : Session, x.Received S (cfg.psk.map (·.1)) p.secret → x.received <+: c.rx.bytes →
      ∀ a fm vd b, x.msgs = a ++ (fm, .finished vd) :: b →
        vd ≠ verifyData S (x.serverSecret S (cfg.psk.map (·.1))) (x.tr0 ++ Session.bytesOf a))
    (a b : Res TlsError ((Bytes → Option Bytes) × SignatureScheme)) :
    Conn.open_ S cfg { p with signer := a } v c = Conn.open_ S cfg { p with signer := b } v c := by
  rcases C119_once S hS cfg p v hf with h1 | ⟨x, hx, _⟩
  · exact h1 a b
  · obtain ⟨m, fm, vd, r, e1, _, e2⟩ := hx.finished
    exact absurd e2 (h x hx.received hx.bytes m fm vd r e1)

/-- **C119** A signature the client makes is no use elsewhere: a content that is valid for another handshake — seen as the
transcript `t` by whoever checks it, as a client's signature — is that of the same handshake, or there is a collision of the
hash; in particular `t` begins with the client's own ClientHello.  And it is never what a server signs. -/
theorem C119_bound {S : Suite} {H : Hash} (hu : UsesHash S H) (cfg : Config) (p : Provider V) (v : V) {c : Conn}
    {x : Session} (hx : SignsFor S cfg p v c x) (t : Bytes) :
    (clientSigned S x.beforeFinished = clientSigned S t →
      (t = x.beforeFinished ∧ ∃ binders, (expectedHello cfg S.codePoint p.random (S.pubKey p.secret) binders).bytes <+: t) ∨
      Clash H H.len [x.beforeFinished] [t]) ∧
    clientSigned S x.beforeFinished ≠ serverSignedContent S t := by
  obtain ⟨_, h2, h3⟩ := C103_signed hu x.beforeFinished t
  refine ⟨fun h => (h2 h).imp (fun e => ⟨e.symm, ?_⟩) id, fun h => (C103_signed hu t x.beforeFinished).2.2 h.symm⟩
  obtain ⟨b, hb⟩ := hx.hello
  refine ⟨b, ?_⟩
  rw [← e, ← hb]
  simp [Session.beforeFinished, Session.tr0]

/-! ## Examples -/

/-- A connection to a server that asks for a certificate. -/
def exAsks : Conn := exNew 400 [.data (exServer exCfg exSH [[exEE, exCR], [.finished]])]

set_option maxRecDepth 10000 in
/-- The second case of `C119_once`: what is sent to a server that asks for a certificate depends on the signer. -/
theorem exAsks_signs : ∃ x : Session, SignsFor toySuite exCfg exClient () exAsks x ∧
    ∀ (scheme : SignatureScheme) (sign sign' : Bytes → Option Bytes),
      sign (clientSigned toySuite x.beforeFinished) = sign' (clientSigned toySuite x.beforeFinished) →
      Conn.open_ toySuite exCfg { exClient with signer := .ok (sign, scheme) } () exAsks =
        Conn.open_ toySuite exCfg { exClient with signer := .ok (sign', scheme) } () exAsks := by
  rcases C119_once toySuite toySuite_lawful exCfg exClient () (exNew_fresh 400 _ (by decide)) with h | h
  · have h1 : (Conn.open_ toySuite exCfg { exClient with signer := .ok (fun m => some (m.drop 98), .ed25519) } () exAsks).1 =
        .ok () := by decide +kernel
    have h2 : (Conn.open_ toySuite exCfg { exClient with signer := .ok (fun _ => none, .ed25519) } () exAsks).1 = .panic := by
      decide +kernel
    have := congrArg Prod.fst (h (.ok (fun m => some (m.drop 98), .ed25519)) (.ok (fun _ => none, .ed25519)))
    rw [show Conn.open_ toySuite exCfg { exClient with signer := .ok (fun m => some (m.drop 98), .ed25519) } ()
      (exNew 400 [.data (exServer exCfg exSH [[exEE, exCR], [.finished]])]) = Conn.open_ toySuite exCfg
        { exClient with signer := .ok (fun m => some (m.drop 98), .ed25519) } () exAsks from rfl, h1,
      show Conn.open_ toySuite exCfg { exClient with signer := .ok (fun _ => none, .ed25519) } ()
      (exNew 400 [.data (exServer exCfg exSH [[exEE, exCR], [.finished]])]) = Conn.open_ toySuite exCfg
        { exClient with signer := .ok (fun _ => none, .ed25519) } () exAsks from rfl, h2] at this
    cases this
  · exact h

/-- A client without a certificate signs nothing. -/
example (a b : Res TlsError ((Bytes → Option Bytes) × SignatureScheme)) :
    Conn.open_ toySuite exCfg { exProv with signer := a } () exAsks = Conn.open_ toySuite exCfg { exProv with signer := b } () exAsks :=
  C119_unasked toySuite toySuite_lawful exCfg exProv () (exNew_fresh 400 _ (by decide)) (.inl fun _ h => by cases h) a b

/-- On an input that ends before the ServerHello there is no Finished at all. -/
example (a b : Res TlsError ((Bytes → Option Bytes) × SignatureScheme)) :
    Conn.open_ toySuite exCfg { exClient with signer := a } () (exNew 400 []) =
      Conn.open_ toySuite exCfg { exClient with signer := b } () (exNew 400 []) :=
  C119_unproven toySuite toySuite_lawful exCfg exClient () (exNew_fresh 400 [] (by decide)) (fun x hx hb => by
    obtain ⟨v1, v2, junk, h1, h2⟩ := hx.shRecord
    have := hb.length_le
    rw [show (exNew 400 []).rx.bytes = [] from rfl, Session.received, h2] at this
    simp [plaintextRecord] at this) a b

end ETls
