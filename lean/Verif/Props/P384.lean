import Verif.Proofs.P384Der
import Verif.Proofs.P384Sec1
import Verif.Props.SignedOnly
import Verif.Props.Textbook

/-! # C129: servers and certificates with ECDSA on P-384

As C99, C123 and C127 for P-256. -/

namespace ETls

open Spec Crypto.P384
open Crypto (mmul toBE ofBE mmul_cast eager_eq sha384 sha384_length)
open WeierstrassCurve.Affine (Point)

variable {V : Type}

/-- The private key `d` in the range FIPS 186-4 prescribes. -/
def IsP384Secret (d : Nat) : Prop := 0 < d ∧ d < p384n

/-- The libraries accept what ECDSA produces. -/
theorem ecdsa384_valid (L : PkiLib) (T : DerTags) {d : Nat} (hd : IsP384Secret d) {m sig : Bytes} (h : Signed d m sig) :
    ValidSignature ((L.withP384 T).concrete T) .ecdsaP384Sha384 (p384Key d) m sig ∧ sig.length ≤ 104 := by
  obtain ⟨r, s, h1, h2, h3⟩ := Crypto.P384.ecdsaSigned_verifies T hd.1 hd.2 h
  obtain ⟨Q, h4, -⟩ := public_decode hd.2 hd.1.ne'
  refine ⟨⟨?_, ?_, ?_⟩, h3⟩
  · simp only [PkiLib.concrete, PkiLib.withP384, if_false, if_true, reduceCtorEq]
    show (sec1Decode (sec1Encode (smul d p384g).affine)).isSome = true
    rw [h4]; rfl
  · simp only [PkiLib.concrete, PkiLib.withP384, if_false, if_true, reduceCtorEq]
    rw [h1]; rfl
  · simp only [PkiLib.concrete, PkiLib.withP384, if_false, if_true, reduceCtorEq]
    rw [h1]
    exact h2

namespace Spec

/-- `key` is the public key of the private key `d` (SEC 1 section 3.2.1): an encoding of the point `d G`. -/
structure IsKey384Of (key : Bytes) (d : Nat) : Prop where
  secret : IsP384Secret d
  point : ∃ x y, OnP384 x y ∧ EncodesPoint384 x y key ∧ (smul d p384g).affine = (x, y)

end Spec

/-- What a decoded key is: the key of some private key. -/
theorem key384_owner {key : Bytes} {Q : Jac} (h : sec1Decode key = some Q) : ∃ d, IsKey384Of key d := by
  obtain ⟨x, y, h1, h2, hQ⟩ := (decode_iff _ _).mp h
  obtain ⟨d, d0, d1, d2⟩ := decode_generated h
  refine ⟨d, ⟨d0, d1⟩, x, y, h1, h2, ?_⟩
  rw [affine_unique (smul_g_rep d1) d2 (smul_G_ne d1 d0.ne'), hQ]
  have a := affine_cast d2.reduced (by rw [hQ]; exact one_ne_zero)
  rw [hQ] at a
  simp only [Jac.ax, Jac.ay, Nat.cast_one, one_pow, div_one] at a
  exact Prod.ext ((cast_inj Fp (affine_lt _).1 h1.x_lt).mp a.1) ((cast_inj Fp (affine_lt _).2 h1.y_lt).mp a.2)

/-- Every encoding of the key is the same key to the libraries. -/
theorem Spec.IsKey384Of.decode {key : Bytes} {d : Nat} (h : IsKey384Of key d) : sec1Decode key = sec1Decode (p384Key d) := by
  obtain ⟨-, x, y, h1, h2, h3⟩ := h
  rw [(decode_iff key _).2 ⟨x, y, h1, h2, rfl⟩, p384Key, h3, (decode_iff (sec1Encode (x, y)) _).2 ⟨x, y, h1, .inl rfl, rfl⟩]

theorem Spec.IsKey384Of.unique {key : Bytes} {d d' : Nat} (h : IsKey384Of key d) (h' : IsKey384Of key d') : d = d' := by
  obtain ⟨Q, a1, a2⟩ := public_decode h.secret.2 h.secret.1.ne'
  obtain ⟨Q', b1, b2⟩ := public_decode h'.secret.2 h'.secret.1.ne'
  have e : some Q = some Q' := by
    rw [← a1, ← b1]
    exact h.decode.symm.trans h'.decode
  injection e with e
  subst e
  have hA : d • G = d' • G := by
    rcases a2.point with ⟨-, h0⟩ | ⟨-, hn, h0⟩
    · exact absurd h0 (smul_G_ne h.secret.2 h.secret.1.ne')
    rcases b2.point with ⟨-, h1⟩ | ⟨-, hn', h1⟩
    · exact absurd h1 (smul_G_ne h'.secret.2 h'.secret.1.ne')
    rw [h0, h1]
  have := nsmul_inj_mod.mp hA
  rwa [order_G, Nat.mod_eq_of_lt h.secret.2, Nat.mod_eq_of_lt h'.secret.2] at this

/-- **C129, keys** The keys the libraries accept for ECDSA on P-384 are the public keys of private keys, compressed or not,
and each of them belongs to one private key only. -/
theorem C129_key (L : PkiLib) (T : DerTags) (key : Bytes) :
    ((L.withP384 T).concrete T).keyOk .ecdsaP384Sha384 key = true ↔ ∃ d, IsKey384Of key d ∧ ∀ d', IsKey384Of key d' → d' = d := by
  simp only [PkiLib.concrete, PkiLib.withP384, if_false, if_true, reduceCtorEq]
  constructor
  · intro h
    obtain ⟨Q, h⟩ := Option.isSome_iff_exists.1 h
    obtain ⟨d, hd⟩ := key384_owner h
    exact ⟨d, hd, fun d' h' => h'.unique hd⟩
  · rintro ⟨d, hd, -⟩
    obtain ⟨Q, h4, -⟩ := public_decode hd.secret.2 hd.secret.1.ne'
    rw [hd.decode]
    show (sec1Decode (sec1Encode (smul d p384g).affine)).isSome = true
    rw [h4]; rfl

/-- **C129, signatures** What the libraries accept as a signature under a key is what ECDSA produces with its private key, for
some nonce, in DER, and nothing else: no other encoding of the numbers, no numbers out of range, no other message hash. -/
theorem C129_signature (L : PkiLib) (T : DerTags) {key : Bytes} {d : Nat} (hd : IsKey384Of key d) (m sig : Bytes) :
    ValidSignature ((L.withP384 T).concrete T) .ecdsaP384Sha384 key m sig ↔ Signed d m sig := by
  have hdec := hd.decode
  constructor
  · rintro ⟨-, h2, h3⟩
    simp only [PkiLib.concrete, PkiLib.withP384, if_false, if_true, reduceCtorEq] at h2 h3
    cases hs : Crypto.P384.ecdsaSig T sig with
    | none => rw [hs] at h2; cases h2
    | some rs =>
      obtain ⟨r, s⟩ := rs
      rw [hs] at h3
      obtain ⟨hr, hs', rfl⟩ := (Crypto.P384.ecdsaSig_iff T sig r s).1 hs
      have h4 : ecdsaVerify (p384Key d) (sha384 m) r s = true := by
        rw [← h3]
        unfold ecdsaVerify
        rw [hdec]
      obtain ⟨k, hk, h5, h6⟩ := Crypto.P384.ecdsaVerify_only hd.secret.1 hd.secret.2 h4
      rw [List.take_of_length_le (sha384_length m).le] at h6
      exact ⟨k, r, s, hk, hr, hs', h5, h6, rfl⟩
  · intro h
    obtain ⟨h1, h2, h3⟩ := (ecdsa384_valid L T hd.secret h).1
    refine ⟨?_, h2, ?_⟩
    · simp only [PkiLib.concrete, PkiLib.withP384, if_false, if_true, reduceCtorEq] at h1 ⊢
      rw [hdec]
      exact h1
    · simp only [PkiLib.concrete, PkiLib.withP384, if_false, if_true, reduceCtorEq] at h3 ⊢
      rw [← h3]
      unfold ecdsaVerify
      rw [hdec]

/-- **C129, one encoding** A pair of numbers has one encoding that is accepted. -/
theorem C129_encoding (T : DerTags) {a b : Bytes} {r s : Nat} (ha : Crypto.P384.ecdsaSig T a = some (r, s)) (hb : Crypto.P384.ecdsaSig T b = some (r, s)) :
    a = b :=
  ((Crypto.P384.ecdsaSig_iff T a r s).1 ha).2.2.trans ((Crypto.P384.ecdsaSig_iff T b r s).1 hb).2.2.symm

/-- **C129, the server's signature** A CertificateVerify with ecdsa_secp384r1_sha384 is accepted as signed if and only if it
was signed with the private key of the first certificate. -/
theorem C129_server (L : PkiLib) (T : DerTags) {certs : List Bytes} {content sig : Bytes} :
    SignedByLeaf ((L.withP384 T).concrete T) certs 0x0503 content sig ↔
      ∃ leaf rest dc key d, certs = leaf :: rest ∧ ((L.withP384 T).concrete T).fromDer leaf = some dc ∧ dc.publicKey = some key ∧
        IsKey384Of key d ∧ Signed d content sig := by
  constructor
  · rintro ⟨leaf, rest, dc, key, scheme, algo, h1, h2, h3, h4, h5, h6⟩
    have hs : scheme = .ecdsaSecp384r1Sha384 := by
      revert h4; cases scheme <;> decide
    subst hs
    have ha : algo = .ecdsaP384Sha384 := by
      revert h5; cases algo <;> decide
    subst ha
    obtain ⟨d, hd, -⟩ := (C129_key L T key).1 h6.1
    exact ⟨leaf, rest, dc, key, d, h1, h2, h3, hd, (C129_signature L T hd _ _).1 h6⟩
  · rintro ⟨leaf, rest, dc, key, d, h1, h2, h3, hd, h4⟩
    exact ⟨leaf, rest, dc, key, _, .ecdsaP384Sha384, h1, h2, h3, (by decide : (SignatureScheme.ecdsaSecp384r1Sha384, 0x0503) ∈ _),
      by decide, (C129_signature L T hd _ _).2 h4⟩

/-- **C129, certificates** A certificate with the algorithm ecdsa-with-SHA384 counts as issued by another if and only if its
to-be-signed part was signed with the private key of the other. -/
theorem C129_certificate (L : PkiLib) (T : DerTags) {issuer cert : Bytes} {di dc : DecodedCert}
    (hi : ((L.withP384 T).concrete T).fromDer issuer = some di) (hc : ((L.withP384 T).concrete T).fromDer cert = some dc) (halg : dc.sigAlg = algEcdsaSha384) :
    IssuedBy ((L.withP384 T).concrete T) issuer cert ↔
      ∃ key d tbs sig, di.publicKey = some key ∧ IsKey384Of key d ∧ dc.signature = some sig ∧
        FirstElement ((L.withP384 T).concrete T) cert tbs ∧ Signed d tbs sig := by
  constructor
  · rintro ⟨di', dc', key, algo, tbs, sig, h1, h2, h3, h4, h5, h6, h7⟩
    rw [hi] at h1
    rw [hc] at h2
    cases h1
    cases h2
    rw [halg] at h4
    have ha : algo = .ecdsaP384Sha384 := by
      revert h4; cases algo <;> decide
    subst ha
    obtain ⟨d, hd, -⟩ := (C129_key L T key).1 h7.1
    exact ⟨key, d, tbs, sig, h3, hd, h5, h6, (C129_signature L T hd _ _).1 h7⟩
  · rintro ⟨key, d, tbs, sig, h3, hd, h5, h6, h7⟩
    exact ⟨di, dc, key, .ecdsaP384Sha384, tbs, sig, hi, hc, h3, by rw [halg]; decide, h5, h6, (C129_signature L T hd _ _).2 h7⟩

/-- **C129, every connection** If `open` succeeds with the native verifier, then every CertificateVerify received with
ecdsa_secp384r1_sha384 was signed with the private key of the leaf, and covers the ClientHello sent, the ServerHello and all
messages up to the Certificate; and every certificate of the chain with ecdsa-with-SHA384 was signed with the private key of the
next one, the last with the private key of the configured CA. -/
theorem C129_open {S : Suite} (hS : S.Lawful) (L : PkiLib) (T : DerTags) (F : Features) (now : Option Nat) (N : Nat) (cfg : Config)
    (p : Provider PkiVerifier) (ca : CertEntry) {c c' : Conn} (hf : c.Fresh S)
    (hv : p.verifier = some (pkiOps ((L.withP384 T).concrete T) S F now N))
    (h : Conn.open_ S cfg p (PkiVerifier.new ca) c = (.ok (), c')) :
    ∃ x, Established S cfg p (PkiVerifier.new ca) c x c' ∧
      (∀ before m sig after, x.msgs = before ++ (m, .certificateVerify 0x0503 sig) :: after →
        ∃ a mc ctx es b leaf rest dc key d, before = a ++ (mc, .certificate ctx es) :: b ∧ noAuth b ∧
          es.map (·.1) = leaf :: rest ∧ ((L.withP384 T).concrete T).fromDer leaf = some dc ∧ dc.publicKey = some key ∧ IsKey384Of key d ∧
          Signed d (serverSignedContent S (x.hello ++ x.sh ++ Session.bytesOf a ++ mc)) sig) ∧
      ∀ before m ctx es after, x.msgs = before ++ (m, .certificate ctx es) :: after →
        ∀ (i : Nat) (cert : Bytes) (dc : DecodedCert), (es.map (·.1))[i]? = some cert →
          ((L.withP384 T).concrete T).fromDer cert = some dc → dc.sigAlg = algEcdsaSha384 →
          ∃ issuer di key d tbs sig, ((es.map (·.1)).map CertEntry.x509 ++ [ca])[i + 1]? = some (.x509 issuer) ∧
            ((L.withP384 T).concrete T).fromDer issuer = some di ∧ di.publicKey = some key ∧ IsKey384Of key d ∧ dc.signature = some sig ∧
            FirstElement ((L.withP384 T).concrete T) cert tbs ∧ Signed d tbs sig := by
  obtain ⟨x, hx⟩ := open_session S hS cfg p _ hf h
  obtain ⟨-, hc, hs⟩ := hx.native S ((L.withP384 T).concrete T) F now N cfg p ca hv h
  refine ⟨x, hx, ?_, ?_⟩
  · intro before m sig after hm
    obtain ⟨a, mc, ctx, es, b, h1, h2, h3⟩ := hs _ _ _ _ _ hm
    obtain ⟨leaf, rest, dc, key, d, h4, h5, h6, h7, h8⟩ := (C129_server L T).1 h3
    exact ⟨a, mc, ctx, es, b, leaf, rest, dc, key, d, h1, h2, h4, h5, h6, h7, h8⟩
  · intro before m ctx es after hm i cert dc hi hdc halg
    obtain ⟨-, issuer, h1, h2⟩ := (hc _ _ _ _ _ hm).1 i cert hi
    have h2' := h2
    obtain ⟨di, -, -, -, -, -, h3, -⟩ := h2'
    obtain ⟨key, d, tbs, sig, h4, h5, h6, h7, h8⟩ := (C129_certificate L T h3 hdc halg).1 h2
    exact ⟨issuer, di, key, d, tbs, sig, h1, h3, h4, h5, h6, h7, h8⟩

/-- **C129, every message** can be signed, with every key: with the nonce 1 or with the nonce 2. -/
theorem C129_every {d : Nat} (hd : IsP384Secret d) (m : Bytes) : ∃ sig, Signed d m sig := by
  obtain ⟨hd0, hd1⟩ := hd
  have key : ∀ k, 0 < k → k < p384n → 0 < (smul k p384g).affine.1 % p384n →
      ((ofBE (sha384 m) + (smul k p384g).affine.1 % p384n * d : Nat) : ZMod p384n) ≠ 0 → ∃ sig, Signed d m sig := by
    intro k k0 k1 hr hz
    obtain ⟨i1, -⟩ := p384n_inverse k0 k1
    generalize hrr : (smul k p384g).affine.1 % p384n = r at hr hz
    have hrl : r < p384n := by rw [← hrr]; exact Nat.mod_lt _ (by decide)
    let s : ZMod p384n := ((ofBE (sha384 m) + r * d : Nat) : ZMod p384n) * (k : ZMod p384n)⁻¹
    have hs0 : s ≠ 0 := mul_ne_zero hz (inv_ne_zero i1)
    have hsl : s.val < p384n := ZMod.val_lt s
    refine ⟨_, k, r, s.val, ⟨k0, k1⟩, ⟨hr, hrl⟩, ⟨Nat.pos_of_ne_zero ?_, hsl⟩, hrr, ?_, rfl⟩
    · rwa [Ne, ZMod.val_eq_zero]
    · rw [← Nat.ModEq, ← ZMod.natCast_eq_natCast_iff]
      push_cast
      rw [ZMod.natCast_zmod_val]
      simp only [s]
      push_cast
      rw [mul_assoc, inv_mul_cancel₀ i1, mul_one]
  by_cases h1 : ((ofBE (sha384 m) + (smul 1 p384g).affine.1 % p384n * d : Nat) : ZMod p384n) = 0
  · refine key 2 (by decide) (by decide) (by decide +kernel) fun h2 => ?_
    push_cast at h1 h2
    have h3 : ((((smul 1 p384g).affine.1 % p384n : Nat) : ZMod p384n) - (((smul 2 p384g).affine.1 % p384n : Nat) : ZMod p384n)) *
        (d : ZMod p384n) = 0 := by linear_combination h1 - h2
    rcases mul_eq_zero.1 h3 with h | h
    · rw [sub_eq_zero, ZMod.natCast_eq_natCast_iff] at h
      revert h
      unfold Nat.ModEq
      decide +kernel
    · exact (p384n_inverse hd0 hd1).1 h
  · exact key 1 (by decide) (by decide) (by decide +kernel) h1

/-- The public key of every private key is one. -/
theorem isKey384Of_public {d : Nat} (hd : IsP384Secret d) : IsKey384Of (p384Key d) d := by
  obtain ⟨Q, h1, h2⟩ := public_decode hd.2 hd.1.ne'
  obtain ⟨d', h'⟩ := key384_owner h1
  have hx : d' = d := by
    obtain ⟨Q', b1, b2⟩ := public_decode h'.secret.2 h'.secret.1.ne'
    have e : some Q = some Q' := by
      rw [← h1, ← b1]
      exact h'.decode
    injection e with e
    subst e
    have hA : d' • G = d • G := by
      rcases h2.point with ⟨-, h0⟩ | ⟨-, hn, h0⟩
      · exact absurd h0 (smul_G_ne hd.2 hd.1.ne')
      rcases b2.point with ⟨-, h1⟩ | ⟨-, hn', h1⟩
      · exact absurd h1 (smul_G_ne h'.secret.2 h'.secret.1.ne')
      rw [h0, h1]
    have := nsmul_inj_mod.mp hA
    rwa [order_G, Nat.mod_eq_of_lt h'.secret.2, Nat.mod_eq_of_lt hd.2] at this
  subst hx
  exact h'

section
variable {S : Suite}

/-- **C129, sessions** C127 for a server with a key on P-384: a client with the native verifier (feature `p384`), and a server of TLS
1.3 whose certificates are valid for the host and lead to the CA, and that signs with ecdsa_secp384r1_sha384 and the private key
of the first. -/
theorem C129_session (hs : Shipped S) (L : PkiLib) (T : DerTags) (F : Features) (hF : F.p384 = true) (now : Option Nat) (N : Nat)
    (cfg : Config) (p : Provider PkiVerifier) (ca : CertEntry)
    (hv : p.verifier = some (pkiOps ((L.withP384 T).concrete T) S F now N))
    (hEd : ∀ k, L.keyOk .ed25519 k = true → k.length = 32)
    (host : Bytes) (hname : cfg.serverName = some host) (hlen : host.length ≤ 64)
    (t : Textbook) (hrand : t.random.length = 32) (hc : t.request = true → p.clientCert = none)
    (hchain : ValidChain ((L.withP384 T).concrete T) F now ca host t.certs)
    {leaf key : Bytes} {dc : DecodedCert} {d : Nat} (hleaf : t.certs.head? = some leaf)
    (hdc : ((L.withP384 T).concrete T).fromDer leaf = some dc) (hkey : dc.publicKey = some key) (hk : IsKey384Of key d)
    (hscheme : t.scheme = 0x0503) (hsign : ∀ m, Signed d m (t.sign m)) (hsl : 112 ≤ t.certificate.bytes.length)
    (hcerts : t.certs.length ≤ 16) (hmsg : t.certificate.bytes.length ≤ 16384) (hN : t.certificate.bytes.length ≤ N)
    (hpsk : t.psk = cfg.psk.map (·.1)) (hfit : HelloFits S cfg p) (ha : Crypto.scalarOf p.secret ≠ 0) (hb : Crypto.scalarOf t.secret ≠ 0)
    {rx : Rx} {tx : Tx} {rb wb : Bytes} {c : Conn} (hn : Conn.new S rx tx rb wb = .ok c) (hclean : rx.Clean) (hrel : Reliable tx)
    (fs : List Fragment) (hfs : ∀ f ∈ fs, Sendable S f) (hcount : fs.length < 2 ^ 64)
    (hrx : rx.bytes = t.answer S (helloMsg S cfg p) ++ t.send S (helloMsg S cfg p) fs)
    (hhello : 5 + helloLength S cfg p ≤ wb.length) (hwb : 133 ≤ wb.length) (hwb' : wb.length < 65652) (hrb : 192 ≤ rb.length)
    (hcert : t.certificate.bytes.length + 17 ≤ rb.length)
    (hfrag : ∀ f ∈ fs, f.inner.length + 16 ≤ rb.length ∧ f.inner.length + 16 < 65536) :
    ∃ c', Conn.open_ S cfg p (PkiVerifier.new ca) c = (.ok (), c') ∧
      Session127 S t (helloMsg S cfg p) (if t.request then [certificateMsg [] []] else []) fs tx.log c' := by
  obtain ⟨rest, hrest⟩ := List.head?_eq_some_iff.1 hleaf
  refine textbook_native hs _ F now N cfg p ca hv hEd host hname hlen t hrand hc hchain
    (by rw [hscheme]; exact ⟨.ecdsaSecp384r1Sha384, by decide⟩) (fun m => ?_) (fun m => ?_) hcerts hmsg hN hpsk hfit ha hb hn hclean hrel
    fs hfs hcount hrx hhello hwb hwb' hrb hcert hfrag
  · rw [hrest, hscheme]
    exact ⟨leaf, rest, dc, key, .ecdsaSecp384r1Sha384, .ecdsaP384Sha384, rfl, hdc, hkey, by decide, by decide, hF,
      (C129_signature L T hk _ _).2 (hsign m)⟩
  · have := (ecdsa384_valid L T hk.secret (hsign m)).2
    exact le_trans (by omega) (le_max_right _ _)

end

/-! ## Examples -/

/-- A private key, and a certificate for example.com that OpenSSL signed with it. -/
def p384Secret : Nat := 0x72c57fac11c8e8b19a8976dd2604939e1b992b139aba485a80a2a9a534fa4ce91c0e0164747a056099723818e63bf414
def p384Cert : Bytes := toBE 473
  0x308201d53082015ca003020102021453e301074016e166eeea6d20b5fc7274180b845c300a06082a8648ce3d04030330163114301206035504030c0b6578616d706c652e636f6d301e170d3236313131373233303735375a170d3336313131343233303735375a30163114301206035504030c0b6578616d706c652e636f6d3076301006072a8648ce3d020106052b81040022036200049d9500439710565d769ae2472bc1c1b831a3b16786038bb66214e09f2be35a47bfeb4a895fad5cbf0a53f291fdcb167e663fcdf5246d614e1e5fc98f715c27e37abe3fe3608dcd8013453f5cd5c5f6e68755a02484be5dc5d7d89be5d6724500a36b3069301d0603551d0e04160414a2f00c46138e841be710c207112635bf0b452d37301f0603551d23041830168014a2f00c46138e841be710c207112635bf0b452d37300f0603551d130101ff040530030101ff30160603551d11040f300d820b6578616d706c652e636f6d300a06082a8648ce3d0403030367003064023012869c26b80e64419e1be6cafcc99267cb736278c4581ac91c21c848655d7085b247eb82df95132a96ca5e484872bfcd0230433c6e26204a665eac8e507c9cc98003e8329fbbbee727223edfac12afc5fd95514308b40b9aec9b178cc2ff21822290
def p384Tbs : Bytes := (p384Cert.drop 4).take 352
def p384CertSig : Bytes := p384Cert.drop 371

theorem p384Secret_ok : IsP384Secret p384Secret := by constructor <;> decide +kernel

/-- The libraries with ECDSA on P-384. -/
abbrev p384Pki : PkiLib := (noPki.withP384 derTags).concrete derTags

set_option maxRecDepth 100000 in
theorem p384Cert_first : FirstElement p384Pki p384Cert p384Tbs :=
  ⟨p384Cert.take 4, p384Cert.drop 356, 469, 4, 348, by decide +kernel, by decide +kernel, by decide +kernel, by decide +kernel,
    by decide +kernel, by decide +kernel⟩

set_option maxRecDepth 100000 in
/-- What OpenSSL put into the certificate is a signature of FIPS 186-4. -/
theorem p384Cert_signed : Signed p384Secret p384Tbs p384CertSig :=
  (C129_signature noPki derTags (isKey384Of_public p384Secret_ok) _ _).1 (by unfold ValidSignature; decide +kernel)

set_option maxRecDepth 100000 in
/-- The certificate, decoded. -/
theorem p384Cert_reads : ∃ dc, p384Pki.fromDer p384Cert = some dc ∧ dc.publicKey = some (p384Key p384Secret) ∧
    dc.sigAlg = algEcdsaSha384 ∧ dc.signature = some p384CertSig ∧
    Readable p384Pki p384Cert [ascii "example.com"] ∧ SubjectFits dc ∧
    SanNames p384Pki dc [ascii "example.com"] ∧ NamesFit p384Pki [ascii "example.com"] := by
  have hx : (p384Pki.fromDer p384Cert).any (fun dc =>
      dc.publicKey = some (p384Key p384Secret) ∧ dc.sigAlg = algEcdsaSha384 ∧ dc.signature = some p384CertSig ∧
      dc.subject = [[⟨[2, 5, 4, 3], ascii "example.com"⟩]] ∧
      dc.extensions = some ([⟨[2, 5, 29, 14], none, 4, toBE 22 0x0414A2F00C46138E841BE710C207112635BF0B452D37⟩,
        ⟨[2, 5, 29, 35], none, 4, toBE 24 0x30168014A2F00C46138E841BE710C207112635BF0B452D37⟩,
        ⟨[2, 5, 29, 19], some true, 4, [0x30, 3, 1, 1, 0xff]⟩] ++
        ⟨[2, 5, 29, 17], none, 4, [0x30, 13] ++ ([0x82, 11] ++ ascii "example.com" ++ []) ++ []⟩ :: [])) = true := by decide +kernel
  rw [Option.any_eq_true] at hx
  obtain ⟨dc, h1, h2⟩ := hx
  simp only [decide_eq_true_eq] at h2
  obtain ⟨h2, h5, h6, h3, h4⟩ := h2
  have a1 : SubjectFits dc := by
    intro rdn hr
    rw [h3, List.mem_singleton] at hr
    subst hr
    exact ⟨_, _, rfl, fun _ => by decide⟩
  have a2 : SanNames p384Pki dc [ascii "example.com"] :=
    .present _ [] _ [0x30, 13] ([0x82, 11] ++ ascii "example.com" ++ []) [] [(0x82, ascii "example.com")] h4 rfl
      (by decide) rfl rfl (by decide +kernel) rfl (.cons [0x82, 11] (ascii "example.com") [] 0x82 [] (by decide +kernel) rfl .nil)
  have a3 : NamesFit p384Pki [ascii "example.com"] := by
    intro n hn
    rw [List.mem_singleton] at hn
    subst hn
    exact ⟨by decide +kernel, by decide⟩
  exact ⟨dc, h1, h2, h5, h6, ⟨dc, h1, a1, a2, a3⟩, a1, a2, a3⟩

-- C129_certificate, C129_signature: OpenSSL's certificate, issued by itself
theorem p384Cert_chain : ValidChain p384Pki ⟨true, false, false⟩ none (.x509 p384Cert) (ascii "example.com") [p384Cert] := by
  obtain ⟨dc, h1, h2, h3, h4, h5, h6, h7, h8⟩ := p384Cert_reads
  refine ⟨?_, p384Cert, [], dc, _, ascii "example.com", rfl, h1, h7, h8, h6, ?_, .inl (by simp)⟩
  · intro i cert hi
    have hc : cert = p384Cert ∧ i = 0 := by
      cases i with
      | zero => simpa using hi.symm
      | succ n => simp at hi
    obtain ⟨rfl, rfl⟩ := hc
    exact ⟨⟨dc, h1, fun t ht => by cases ht⟩, ⟨_, h5⟩, p384Cert, rfl, dc, dc, _, .ecdsaP384Sha384, p384Tbs, p384CertSig, h1, h1, h2,
      by rw [h3]; decide, rfl, h4, p384Cert_first, (C129_signature noPki derTags (isKey384Of_public p384Secret_ok) _ _).2 p384Cert_signed⟩
  · rw [← C49_hostname_match]; decide +kernel

/-- The server of example.com with this key, and ecdsa_secp384r1_sha384. -/
noncomputable def p384Server : Textbook where
  secret := [7]
  random := List.replicate 32 5
  psk := none
  request := false
  certs := [p384Cert]
  scheme := 0x0503
  sign := fun m => Classical.choose (C129_every p384Secret_ok m)

theorem p384Server_signs (m : Bytes) : Signed p384Secret m (p384Server.sign m) := Classical.choose_spec (C129_every p384Secret_ok m)

set_option maxRecDepth 100000 in
theorem p384Server_certificate : p384Server.certificate.bytes.length = 486 := by
  show (RawMsg.certificate [] [(p384Cert, [])]).bytes.length = 486
  decide +kernel

/-- A client with the feature `p384`. -/
def p384Client : Provider PkiVerifier :=
  ⟨recRandom, recSecret, some (pkiOps p384Pki (aes128GcmSha256 true) ⟨true, false, false⟩ none 1024), .err .unimplemented, none⟩

theorem p384_hello : HelloFits (aes128GcmSha256 true) (recCfg []) p384Client ∧
    5 + helloLength (aes128GcmSha256 true) (recCfg []) p384Client ≤ 2048 := by
  obtain ⟨h1, h2⟩ := trusting_fits
  exact ⟨⟨h1.random, h1.alpn, h1.length⟩, by
    have : helloLength (aes128GcmSha256 true) (recCfg []) p384Client = helloLength (aes128GcmSha256 false) (recCfg []) trustingClient := rfl
    omega⟩

set_option maxRecDepth 100000 in
/-- C129_session, C129_server: this client with this server. -/
theorem p384_session : ∃ rx c c', Conn.new (aes128GcmSha256 true) rx ⟨[], []⟩ (List.replicate 2048 0) (List.replicate 2048 0) = .ok c ∧
    Conn.open_ (aes128GcmSha256 true) (recCfg []) p384Client (PkiVerifier.new (.x509 p384Cert)) c = (.ok (), c') ∧
    Session127 (aes128GcmSha256 true) p384Server (helloMsg (aes128GcmSha256 true) (recCfg []) p384Client) [] someData [] c' := by
  obtain ⟨c, hc⟩ := new_exists (aes128GcmSha256 true)
    [.data (p384Server.answer (aes128GcmSha256 true) (helloMsg (aes128GcmSha256 true) (recCfg []) p384Client) ++
      p384Server.send (aes128GcmSha256 true) (helloMsg (aes128GcmSha256 true) (recCfg []) p384Client) someData)] 2048 (by decide)
  obtain ⟨dc, h1, h2, -⟩ := p384Cert_reads
  obtain ⟨d1, d2, d3, -⟩ := someData_ok (aes128GcmSha256 true)
  have hm := p384Server_certificate
  obtain ⟨c', k1, k2⟩ := C129_session ⟨true, .inl rfl⟩ noPki derTags ⟨true, false, false⟩ rfl none 1024 (recCfg []) p384Client
    (.x509 p384Cert) rfl (by intro k hk; cases hk) (ascii "example.com") rec_name.2 (by decide) p384Server (List.length_replicate ..)
    (fun h => by cases h) p384Cert_chain (leaf := p384Cert) rfl h1 h2 (isKey384Of_public p384Secret_ok)
    rfl p384Server_signs (by rw [hm]; decide) (by show [p384Cert].length ≤ 16; decide)
    (by omega) (by omega) (by rw [rec_name.1]; rfl) p384_hello.1 rec_scalar (by show Crypto.scalarOf [7] ≠ 0; decide +kernel) hc
    (by intro e he; exact ⟨_, by simp [Textbook.answer, ServerFlight.bytes, plaintextRecord], List.mem_singleton.1 he⟩)
    (by intro a ha; cases ha) someData d1 d2 (by simp [Rx.bytes]) (by rw [List.length_replicate]; exact p384_hello.2)
    (by rw [List.length_replicate]; decide) (by rw [List.length_replicate]; decide) (by rw [List.length_replicate]; decide)
    (by rw [List.length_replicate, hm]; decide) (by simpa using d3)
  exact ⟨_, c, c', hc, k1, k2⟩

-- C129_open: in this session, whatever certificate chain and signature the client received
example : ∃ c c' x, Conn.Fresh (aes128GcmSha256 true) c ∧
    Established (aes128GcmSha256 true) (recCfg []) p384Client (PkiVerifier.new (.x509 p384Cert)) c x c' := by
  obtain ⟨rx, c, c', h1, h2, -⟩ := p384_session
  have hf := (Conn.new_fresh _ h1).1
  obtain ⟨x, hx, -⟩ := C129_open (C95_lawful _ ⟨true, .inl rfl⟩) noPki derTags ⟨true, false, false⟩ none 1024 (recCfg []) p384Client
    (.x509 p384Cert) hf rfl h2
  exact ⟨c, c', x, hf, hx⟩

set_option maxRecDepth 100000 in
-- C129_signature: a signature that OpenSSL made of "sample"
example : Signed p384Secret (ascii "sample") (toBE 103
    0x3065023100b68e1e2623f750a367fb18b4efe8d37822cd46abf588f4d4c4d7f1f7a2a96d67d5a1b2abccdbb35c71ec97e369c159d802305930fef917d353d5d20b2132b330162fc1e6cc224e249524ccc2d157829ad4bc85991d6e568c6de2ded2544e987265ba) :=
  (C129_signature noPki derTags (isKey384Of_public p384Secret_ok) _ _).1 (by unfold ValidSignature; decide +kernel)

set_option maxRecDepth 100000 in
-- … is none of another message
example : ¬Signed p384Secret (ascii "sampl") (toBE 103
    0x3065023100b68e1e2623f750a367fb18b4efe8d37822cd46abf588f4d4c4d7f1f7a2a96d67d5a1b2abccdbb35c71ec97e369c159d802305930fef917d353d5d20b2132b330162fc1e6cc224e249524ccc2d157829ad4bc85991d6e568c6de2ded2544e987265ba) := by
  intro h
  have := (C129_signature noPki derTags (isKey384Of_public p384Secret_ok) _ _).2 h
  revert this
  unfold ValidSignature
  decide +kernel

end ETls
