import Verif.Proofs.EcdsaOnly
import Verif.Proofs.Utf8
import Verif.Props.KeyOwner

/-! # C123: only what the private key has signed is accepted -/

namespace ETls

open Spec Crypto

variable {V : Type}

namespace Spec

/-- `key` is the public key of the private key `d` (SEC 1 section 3.2.1): an encoding of the point `d G`. -/
structure IsKeyOf (key : Bytes) (d : Nat) : Prop where
  secret : IsP256Secret d
  point : ∃ x y, OnP256 x y ∧ EncodesPoint x y key ∧ (smul d p256g).affine = (x, y)

end Spec

/-- What a decoded key is: the key of some private key. -/
theorem key_owner {key : Bytes} {Q : Jac} (h : sec1Decode key = some Q) : ∃ d, IsKeyOf key d := by
  obtain ⟨x, y, h1, h2, hQ⟩ := (decode_iff _ _).mp h
  obtain ⟨d, d0, d1, d2⟩ := decode_generated h
  refine ⟨d, ⟨d0, d1⟩, x, y, h1, h2, ?_⟩
  rw [affine_unique (smul_g_rep d1) d2 (smul_G_ne d1 d0.ne'), hQ]
  have a := affine_cast d2.reduced (by rw [hQ]; exact one_ne_zero)
  rw [hQ] at a
  simp only [Jac.ax, Jac.ay, Nat.cast_one, one_pow, div_one] at a
  exact Prod.ext ((cast_inj Fp (affine_lt _).1 h1.x_lt).mp a.1) ((cast_inj Fp (affine_lt _).2 h1.y_lt).mp a.2)

/-- Every encoding of the key is the same key to the libraries. -/
theorem Spec.IsKeyOf.decode {key : Bytes} {d : Nat} (h : IsKeyOf key d) : sec1Decode key = sec1Decode (p256Key d) := by
  obtain ⟨-, x, y, h1, h2, h3⟩ := h
  rw [(decode_iff key _).2 ⟨x, y, h1, h2, rfl⟩, p256Key, h3, (decode_iff (sec1Encode (x, y)) _).2 ⟨x, y, h1, .inl rfl, rfl⟩]

theorem Spec.IsKeyOf.unique {key : Bytes} {d d' : Nat} (h : IsKeyOf key d) (h' : IsKeyOf key d') : d = d' := by
  obtain ⟨Q, a1, a2⟩ := public_decode h.secret.2 h.secret.1.ne'
  obtain ⟨Q', b1, b2⟩ := public_decode h'.secret.2 h'.secret.1.ne'
  have e : some Q = some Q' := by
    rw [← a1, ← b1]
    exact h.decode.symm.trans h'.decode
  injection e with e
  subst e
  have hA : d • G = d' • G := by
    rcases a2.point with ⟨-, h0⟩ | ⟨-, hn, h0⟩
    · exact absurd h0 (smul_G_ne h.secret.2 h.secret.1.ne')
    rcases b2.point with ⟨-, h1⟩ | ⟨-, hn', h1⟩
    · exact absurd h1 (smul_G_ne h'.secret.2 h'.secret.1.ne')
    rw [h0, h1]
  have := nsmul_inj_mod.mp hA
  rwa [order_G, Nat.mod_eq_of_lt h.secret.2, Nat.mod_eq_of_lt h'.secret.2] at this

/-- **C123, keys** The keys the libraries accept for ECDSA on P-256 are the public keys of private keys, compressed or not,
and each of them belongs to one private key only. -/
theorem C123_key (L : PkiLib) (T : DerTags) (key : Bytes) :
    (L.concrete T).keyOk .ecdsaP256Sha256 key = true ↔ ∃ d, IsKeyOf key d ∧ ∀ d', IsKeyOf key d' → d' = d := by
  simp only [PkiLib.concrete, if_true]
  constructor
  · intro h
    obtain ⟨Q, h⟩ := Option.isSome_iff_exists.1 h
    obtain ⟨d, hd⟩ := key_owner h
    exact ⟨d, hd, fun d' h' => h'.unique hd⟩
  · rintro ⟨d, hd, -⟩
    obtain ⟨Q, h4, -⟩ := public_decode hd.secret.2 hd.secret.1.ne'
    rw [hd.decode]
    show (sec1Decode (sec1Encode (smul d p256g).affine)).isSome = true
    rw [h4]; rfl

/-- **C123, signatures** What the libraries accept as a signature under a key is what ECDSA produces with its private key, for
some nonce, in DER, and nothing else: no other encoding of the numbers, no numbers out of range, no other message hash. -/
theorem C123_signature (L : PkiLib) (T : DerTags) {key : Bytes} {d : Nat} (hd : IsKeyOf key d) (m sig : Bytes) :
    ValidSignature (L.concrete T) .ecdsaP256Sha256 key m sig ↔ EcdsaSigned d m sig := by
  have hdec := hd.decode
  constructor
  · rintro ⟨-, h2, h3⟩
    simp only [PkiLib.concrete, if_true] at h2 h3
    cases hs : ecdsaSig T sig with
    | none => rw [hs] at h2; cases h2
    | some rs =>
      obtain ⟨r, s⟩ := rs
      rw [hs] at h3
      obtain ⟨hr, hs', rfl⟩ := (ecdsaSig_iff T sig r s).1 hs
      have h4 : ecdsaVerify (p256Key d) (sha256 m) r s = true := by
        rw [← h3]
        unfold ecdsaVerify
        rw [hdec]
      obtain ⟨k, hk, h5, h6⟩ := ecdsaVerify_only hd.secret.1 hd.secret.2 h4
      rw [List.take_of_length_le (sha256_length m).le] at h6
      exact ⟨k, r, s, hk, hr, hs', h5, h6, rfl⟩
  · intro h
    obtain ⟨h1, h2, h3⟩ := (ecdsa_valid L T hd.secret h).1
    refine ⟨?_, h2, ?_⟩
    · simp only [PkiLib.concrete, if_true] at h1 ⊢
      rw [hdec]
      exact h1
    · simp only [PkiLib.concrete, if_true] at h3 ⊢
      rw [← h3]
      unfold ecdsaVerify
      rw [hdec]

/-- **C123, one encoding** A pair of numbers has one encoding that is accepted. -/
theorem C123_encoding (T : DerTags) {a b : Bytes} {r s : Nat} (ha : ecdsaSig T a = some (r, s)) (hb : ecdsaSig T b = some (r, s)) :
    a = b :=
  ((ecdsaSig_iff T a r s).1 ha).2.2.trans ((ecdsaSig_iff T b r s).1 hb).2.2.symm

/-- **C123, the server's signature** A CertificateVerify with ecdsa_secp256r1_sha256 is accepted as signed if and only if it
was signed with the private key of the first certificate. -/
theorem C123_server (L : PkiLib) (T : DerTags) {certs : List Bytes} {content sig : Bytes} :
    SignedByLeaf (L.concrete T) certs 0x0403 content sig ↔
      ∃ leaf rest dc key d, certs = leaf :: rest ∧ (L.concrete T).fromDer leaf = some dc ∧ dc.publicKey = some key ∧
        IsKeyOf key d ∧ EcdsaSigned d content sig := by
  constructor
  · rintro ⟨leaf, rest, dc, key, scheme, algo, h1, h2, h3, h4, h5, h6⟩
    have hs : scheme = .ecdsaSecp256r1Sha256 := by
      revert h4; cases scheme <;> decide
    subst hs
    have ha : algo = .ecdsaP256Sha256 := by
      revert h5; cases algo <;> decide
    subst ha
    obtain ⟨d, hd, -⟩ := (C123_key L T key).1 h6.1
    exact ⟨leaf, rest, dc, key, d, h1, h2, h3, hd, (C123_signature L T hd _ _).1 h6⟩
  · rintro ⟨leaf, rest, dc, key, d, h1, h2, h3, hd, h4⟩
    exact ⟨leaf, rest, dc, key, _, .ecdsaP256Sha256, h1, h2, h3, (by decide : (SignatureScheme.ecdsaSecp256r1Sha256, 0x0403) ∈ _),
      by decide, (C123_signature L T hd _ _).2 h4⟩

/-- **C123, certificates** A certificate with the algorithm ecdsa-with-SHA256 counts as issued by another if and only if its
to-be-signed part was signed with the private key of the other. -/
theorem C123_certificate (L : PkiLib) (T : DerTags) {issuer cert : Bytes} {di dc : DecodedCert}
    (hi : (L.concrete T).fromDer issuer = some di) (hc : (L.concrete T).fromDer cert = some dc) (halg : dc.sigAlg = algEcdsaSha256) :
    IssuedBy (L.concrete T) issuer cert ↔
      ∃ key d tbs sig, di.publicKey = some key ∧ IsKeyOf key d ∧ dc.signature = some sig ∧
        FirstElement (L.concrete T) cert tbs ∧ EcdsaSigned d tbs sig := by
  constructor
  · rintro ⟨di', dc', key, algo, tbs, sig, h1, h2, h3, h4, h5, h6, h7⟩
    rw [hi] at h1
    rw [hc] at h2
    cases h1
    cases h2
    rw [halg] at h4
    have ha : algo = .ecdsaP256Sha256 := by
      revert h4; cases algo <;> decide
    subst ha
    obtain ⟨d, hd, -⟩ := (C123_key L T key).1 h7.1
    exact ⟨key, d, tbs, sig, h3, hd, h5, h6, (C123_signature L T hd _ _).1 h7⟩
  · rintro ⟨key, d, tbs, sig, h3, hd, h5, h6, h7⟩
    exact ⟨di, dc, key, .ecdsaP256Sha256, tbs, sig, hi, hc, h3, by rw [halg]; decide, h5, h6, (C123_signature L T hd _ _).2 h7⟩

/-- **C123, every connection** If `open` succeeds with the native verifier, then every CertificateVerify received with
ecdsa_secp256r1_sha256 was signed with the private key of the leaf, and covers the ClientHello sent, the ServerHello and all
messages up to the Certificate; and every certificate of the chain with ecdsa-with-SHA256 was signed with the private key of the
next one, the last with the private key of the configured CA. -/
theorem C123_open {S : Suite} (hS : S.Lawful) (L : PkiLib) (T : DerTags) (F : Features) (now : Option Nat) (N : Nat) (cfg : Config)
    (p : Provider PkiVerifier) (ca : CertEntry) {c c' : Conn} (hf : c.Fresh S)
    (hv : p.verifier = some (pkiOps (L.concrete T) S F now N))
    (h : Conn.open_ S cfg p (PkiVerifier.new ca) c = (.ok (), c')) :
    ∃ x, Established S cfg p (PkiVerifier.new ca) c x c' ∧
      (∀ before m sig after, x.msgs = before ++ (m, .certificateVerify 0x0403 sig) :: after →
        ∃ a mc ctx es b leaf rest dc key d, before = a ++ (mc, .certificate ctx es) :: b ∧ noAuth b ∧
          es.map (·.1) = leaf :: rest ∧ (L.concrete T).fromDer leaf = some dc ∧ dc.publicKey = some key ∧ IsKeyOf key d ∧
          EcdsaSigned d (serverSignedContent S (x.hello ++ x.sh ++ Session.bytesOf a ++ mc)) sig) ∧
      ∀ before m ctx es after, x.msgs = before ++ (m, .certificate ctx es) :: after →
        ∀ (i : Nat) (cert : Bytes) (dc : DecodedCert), (es.map (·.1))[i]? = some cert →
          (L.concrete T).fromDer cert = some dc → dc.sigAlg = algEcdsaSha256 →
          ∃ issuer di key d tbs sig, ((es.map (·.1)).map CertEntry.x509 ++ [ca])[i + 1]? = some (.x509 issuer) ∧
            (L.concrete T).fromDer issuer = some di ∧ di.publicKey = some key ∧ IsKeyOf key d ∧ dc.signature = some sig ∧
            FirstElement (L.concrete T) cert tbs ∧ EcdsaSigned d tbs sig := by
  obtain ⟨x, hx⟩ := open_session S hS cfg p _ hf h
  obtain ⟨-, hc, hs⟩ := hx.native S (L.concrete T) F now N cfg p ca hv h
  refine ⟨x, hx, ?_, ?_⟩
  · intro before m sig after hm
    obtain ⟨a, mc, ctx, es, b, h1, h2, h3⟩ := hs _ _ _ _ _ hm
    obtain ⟨leaf, rest, dc, key, d, h4, h5, h6, h7, h8⟩ := (C123_server L T).1 h3
    exact ⟨a, mc, ctx, es, b, leaf, rest, dc, key, d, h1, h2, h4, h5, h6, h7, h8⟩
  · intro before m ctx es after hm i cert dc hi hdc halg
    obtain ⟨-, issuer, h1, h2⟩ := (hc _ _ _ _ _ hm).1 i cert hi
    have h2' := h2
    obtain ⟨di, -, -, -, -, -, h3, -⟩ := h2'
    obtain ⟨key, d, tbs, sig, h4, h5, h6, h7, h8⟩ := (C123_certificate L T h3 hdc halg).1 h2
    exact ⟨issuer, di, key, d, tbs, sig, h1, h3, h4, h5, h6, h7, h8⟩

/-- **C123, names** A name in a certificate is taken as text if and only if it is the UTF-8 encoding (RFC 3629) of some
characters. -/
theorem C123_text (L : PkiLib) (T : DerTags) (name : Bytes) :
    (L.concrete T).utf8 name = true ↔ ∃ cs : List Char, name = cs.flatMap String.utf8EncodeChar :=
  utf8Valid_iff name

/-! ## Examples -/

/-- The public key of every private key is one. -/
theorem isKeyOf_public {d : Nat} (hd : IsP256Secret d) : IsKeyOf (p256Key d) d := by
  obtain ⟨Q, h1, h2⟩ := public_decode hd.2 hd.1.ne'
  obtain ⟨d', h'⟩ := key_owner h1
  have hx : d' = d := by
    obtain ⟨Q', b1, b2⟩ := public_decode h'.secret.2 h'.secret.1.ne'
    have e : some Q = some Q' := by
      rw [← h1, ← b1]
      exact h'.decode
    injection e with e
    subst e
    have hA : d' • G = d • G := by
      rcases h2.point with ⟨-, h0⟩ | ⟨-, hn, h0⟩
      · exact absurd h0 (smul_G_ne hd.2 hd.1.ne')
      rcases b2.point with ⟨-, h1⟩ | ⟨-, hn', h1⟩
      · exact absurd h1 (smul_G_ne h'.secret.2 h'.secret.1.ne')
      rw [h0, h1]
    have := nsmul_inj_mod.mp hA
    rwa [order_G, Nat.mod_eq_of_lt h'.secret.2, Nat.mod_eq_of_lt hd.2] at this
  subst hx
  exact h'

-- C123_signature: a signature by OpenSSL, under its key
example : ValidSignature (noPki.concrete derTags) .ecdsaP256Sha256 (p256Key recClientSecret) selfTbs
    (ecdsaSigBytes 0x64c9861e5e6049c653dcf1c394e7913083019fc22db8d72df6d48b8276ec509a 0x8d0f6b81482ae22c8091bd52eb8b8159a796bc43ca6b329d71acfd9cdfd2953c) :=
  (C123_signature noPki derTags (isKeyOf_public (by constructor <;> decide +kernel)) _ _).2 selfCert_signed

-- C123_signature: a length in the long form is not accepted, whatever the key, the message and the numbers are
example (L : PkiLib) (T : DerTags) {key : Bytes} {d : Nat} (hd : IsKeyOf key d) (m rest : Bytes) :
    ¬ValidSignature (L.concrete T) .ecdsaP256Sha256 key m (0x30 :: 0x81 :: 0x10 :: rest) := by
  intro h
  obtain ⟨k, r, s, -, hr, hs, -, -, h⟩ := (C123_signature L T hd _ _).1 h
  have hl := (ecdsaSig_bytes T r s hr hs).2
  unfold ecdsaSigBytes at h hl
  simp only [List.cons.injEq, true_and] at h
  have h1 := congrArg UInt8.toNat h.1
  simp only [List.length_cons] at hl
  rw [UInt8.toNat_ofNat', Nat.mod_eq_of_lt (by omega)] at h1
  change 129 = _ at h1
  omega

-- C123_open: a connection with OpenSSL
example : ∃ c c' x, Conn.Fresh (aes128GcmSha256 false) c ∧ c.rx.bytes = recRx1 ∧
    Conn.open_ (aes128GcmSha256 false) (recCfg []) recNative (PkiVerifier.new (.x509 recCa)) c = (.ok (), c') ∧
    Established (aes128GcmSha256 false) (recCfg []) recNative (PkiVerifier.new (.x509 recCa)) c x c' := by
  obtain ⟨c, c', h1, h2, h3⟩ := recRun_opens openssl_native
  obtain ⟨x, hx, -⟩ := C123_open (C95_lawful _ ⟨false, .inl rfl⟩) _ _ _ _ _ (recCfg []) recNative (.x509 recCa) h1 rfl h3
  exact ⟨c, c', x, h1, h2, h3, hx⟩

-- C123_text: a surrogate is not text
example (L : PkiLib) (T : DerTags) : ¬∃ cs : List Char, ([0xed, 0xa0, 0x80] : Bytes) = cs.flatMap String.utf8EncodeChar := by
  rw [← C123_text L T]
  show ¬utf8Valid _ = true
  decide

-- … and the name of a café is
example (L : PkiLib) (T : DerTags) : (L.concrete T).utf8 [0x63, 0x61, 0x66, 0xc3, 0xa9] = true :=
  (C123_text L T _).2 ⟨"café".toList, by decide⟩

end ETls
