import Verif.Proofs.Sec1
import Verif.Props.Agreement

/-! # C101: every key share the client accepts is a public key, and pins down the secret to the client's choice -/

namespace ETls

open Spec Crypto
open WeierstrassCurve.Affine (Point)

variable {V : Type}

/-- Points with the same first coordinate are equal or opposite. -/
theorem same_x {P Q : Jac} {A B : Point (p256Curve Fp)} (hP : Rep Fp P A) (hQ : Rep Fp Q B) (hA : A ≠ 0) (hB : B ≠ 0) :
    P.affine.1 = Q.affine.1 ↔ A = B ∨ A = -B := by
  rcases hP.point with ⟨-, h⟩ | ⟨hp0, hn, h1⟩
  · exact absurd h hA
  rcases hQ.point with ⟨-, h⟩ | ⟨hq0, hn', h2⟩
  · exact absurd h hB
  obtain ⟨a1, -⟩ := affine_cast hP.reduced hp0
  obtain ⟨b1, -⟩ := affine_cast hQ.reduced hq0
  rw [← cast_inj Fp (affine_lt P).1 (affine_lt Q).1, a1, b1, h1, h2, Point.neg_some, Point.some.injEq, Point.some.injEq]
  constructor
  · intro h
    rcases WeierstrassCurve.Affine.Y_eq_of_X_eq hn.1 hn'.1 h with h' | h'
    · exact .inl ⟨h, h'⟩
    · exact .inr ⟨h, h'⟩
  · rintro (h | h) <;> exact h.1

theorem smul_ne {a d : Nat} (ha : a < p256n) (ha0 : a ≠ 0) (hd : d < p256n) (hd0 : 0 < d) : a • d • G ≠ 0 := by
  rw [← mul_nsmul', Ne, smul_G_zero, ← Nat.dvd_iff_mod_eq_zero, p256n_prime.dvd_mul]
  rintro (h | h)
  · exact ha0 (Nat.eq_zero_of_dvd_of_lt h ha)
  · exact hd0.ne' (Nat.eq_zero_of_dvd_of_lt h hd)

theorem smul_inj {a b d : Nat} (ha : a < p256n) (hb : b < p256n) (hd : d < p256n) (hd0 : 0 < d) (h : a • d • G = b • d • G) : a = b := by
  have ho : addOrderOf (d • G) = p256n := (generated (d • G) (smul_G_ne hd hd0.ne')).2
  have := (nsmul_inj_mod (x := d • G)).mp h
  rwa [ho, Nat.mod_eq_of_lt ha, Nat.mod_eq_of_lt hb] at this

theorem smul_neg_iff {a b d : Nat} (ha : a < p256n) (hb : b < p256n) (ha0 : a ≠ 0) (hd : d < p256n) (hd0 : 0 < d) :
    a • d • G = -(b • d • G) ↔ a + b = p256n := by
  have ho : addOrderOf (d • G) = p256n := (generated (d • G) (smul_G_ne hd hd0.ne')).2
  rw [eq_neg_iff_add_eq_zero, ← add_nsmul, ← addOrderOf_dvd_iff_nsmul_eq_zero, ho]
  constructor
  · rintro ⟨k, hk⟩
    have : k = 1 := by
      rcases k with - | - | k
      · omega
      · rfl
      · exfalso
        have : p256n * 2 ≤ p256n * (k + 1 + 1) := Nat.mul_le_mul_left _ (by omega)
        omega
    rw [hk, this, Nat.mul_one]
  · intro h; rw [h]

/-- **C101, accepted** A key share is accepted exactly if it is an encoding of a point of the curve: two coordinates below
the prime that solve the equation, uncompressed or compressed. -/
theorem C101_accepted {S : Suite} (hs : Shipped S) (secret share : Bytes) :
    S.dh secret share ≠ none ↔ ∃ x y, OnP256 x y ∧ EncodesPoint x y share := by
  obtain ⟨-, e2, -⟩ := hs.p256
  rw [e2]
  unfold p256Dh
  constructor
  · intro h
    cases hd : sec1Decode share with
    | none => rw [hd] at h; exact absurd rfl h
    | some Q =>
      obtain ⟨x, y, h1, h2, -⟩ := (decode_iff _ _).mp hd
      exact ⟨x, y, h1, h2⟩
  · rintro ⟨x, y, h1, h2⟩
    rw [(decode_iff _ _).mpr ⟨x, y, h1, h2, rfl⟩]
    simp

/-- **C101, owner** An accepted key share is the public key of some secret — the same point, perhaps compressed — and the
client's shared secret is the one the owner of that secret computes from the client's share.  The secret is unique modulo
the order of the group, and the shared secret is the first coordinate of a point of the curve, never of infinity. -/
theorem C101_owner {S : Suite} (hs : Shipped S) {secret share dhe : Bytes} (ha : scalarOf secret ≠ 0)
    (h : S.dh secret share = some dhe) :
    ∃ owner x y, scalarOf owner ≠ 0 ∧ OnP256 x y ∧ EncodesPoint x y share ∧ EncodesPoint x y (S.pubKey owner) ∧
      S.dh owner (S.pubKey secret) = some dhe ∧
      (∀ other, scalarOf other ≠ 0 → S.pubKey other = S.pubKey owner → scalarOf other = scalarOf owner) ∧
      dhe.length = 32 ∧ ∃ y', OnP256 (ofBE dhe) y' := by
  obtain ⟨e1, e2, -⟩ := hs.p256
  rw [e2] at h
  rw [e1, e2]
  unfold p256Dh at h
  cases hd : sec1Decode share with
  | none => rw [hd] at h; cases h
  | some Q =>
    rw [hd] at h
    injection h with h
    obtain ⟨x, y, h1, h2, hQ⟩ := (decode_iff _ _).mp hd
    obtain ⟨d, d0, d1, d2⟩ := decode_generated hd
    have hlt : p256n < 256 ^ 32 := by decide +kernel
    have hso : scalarOf (toBE 32 d) = d := by
      rw [scalarOf, ofBE_toBE 32 _ (by omega), Nat.mod_eq_of_lt d1]
    have hxy : (smul d p256g).affine = (x, y) := by
      rw [affine_unique (smul_g_rep d1) d2 (smul_G_ne d1 d0.ne'), hQ]
      have a := affine_cast d2.reduced (by rw [hQ]; exact one_ne_zero)
      rw [hQ] at a
      simp only [Jac.ax, Jac.ay, Nat.cast_one, one_pow, div_one] at a
      refine Prod.ext ?_ ?_
      · exact (cast_inj Fp (affine_lt _).1 h1.x_lt).mp a.1
      · exact (cast_inj Fp (affine_lt _).2 h1.y_lt).mp a.2
    have hpub : p256Public (toBE 32 d) = 4 :: (toBE 32 x ++ toBE 32 y) := by rw [p256Public, hso, hxy, sec1Encode]
    have hr := smul_rep ((scalarOf_lt secret).trans p256n_lt) d2
    have hne := smul_ne (scalarOf_lt secret) ha d1 d0
    have hr' := smul_g_rep (k := d * scalarOf secret % p256n) (Nat.mod_lt _ p256n_prime.pos)
    rw [smul_G_mod, Nat.mul_comm, mul_nsmul'] at hr'
    refine ⟨toBE 32 d, x, y, by rw [hso]; exact d0.ne', h1, h2, .inl hpub, ?_, ?_, ?_, ?_⟩
    · rw [dh_value _ _ (by rw [hso]; exact d0.ne') ha, ← h, hso, Nat.mul_comm d, affine_unique hr hr' hne]
    · intro other ho he
      obtain ⟨Q1, a1, a2⟩ := public_decode (scalarOf_lt other) ho
      obtain ⟨Q2, b1, b2⟩ := public_decode d1 d0.ne'
      have : Q1 = Q2 := by
        have e : sec1Encode (smul (scalarOf other) p256g).affine = sec1Encode (smul d p256g).affine := by
          have := he
          rw [p256Public, p256Public, hso] at this
          exact this
        rw [e, b1] at a1
        injection a1 with a1
        exact a1.symm
      subst this
      have hz := smul_G_ne d1 d0.ne'
      have hz' := smul_G_ne (scalarOf_lt other) ho
      rw [hso]
      have hA : scalarOf other • G = d • G := by
        rcases a2.point with ⟨-, h⟩ | ⟨-, hn, h⟩
        · exact absurd h hz'
        rcases b2.point with ⟨-, h'⟩ | ⟨-, hn', h'⟩
        · exact absurd h' hz
        rw [h, h']
      have := nsmul_inj_mod.mp hA
      rwa [order_G, Nat.mod_eq_of_lt (scalarOf_lt other), Nat.mod_eq_of_lt d1] at this
    · rw [← h, toBE_length]
    · have hz : (smul (scalarOf secret) Q).z ≠ 0 := fun e => hne (hr.zero_iff.mp e)
      rcases hr.point with ⟨h0, -⟩ | ⟨-, hn, -⟩
      · exact absurd h0 hz
      obtain ⟨c1, c2⟩ := affine_cast hr.reduced hz
      have hl := affine_lt (smul (scalarOf secret) Q)
      have hplt : p256p < 256 ^ 32 := by decide +kernel
      refine ⟨(smul (scalarOf secret) Q).affine.2, ?_⟩
      rw [← h, ofBE_toBE 32 _ (by omega)]
      refine (onP256_iff hl.1 hl.2).mp ((on_curve _ _).mpr ?_)
      rw [c1, c2]
      exact hn

/-- **C101, the client's choice** For every accepted key share, two secrets of the client give the same shared secret only if
their scalars are equal or opposite modulo the order of the group: no choice of share confines the shared secret to a few
values. -/
theorem C101_spread {S : Suite} (hs : Shipped S) {share a b : Bytes} (hsh : S.dh a share ≠ none) (ha : scalarOf a ≠ 0)
    (hb : scalarOf b ≠ 0) : S.dh a share = S.dh b share ↔ scalarOf a = scalarOf b ∨ scalarOf a + scalarOf b = p256n := by
  obtain ⟨-, e2, -⟩ := hs.p256
  rw [e2] at hsh
  rw [e2]
  unfold p256Dh at *
  cases hd : sec1Decode share with
  | none => rw [hd] at hsh; exact absurd rfl hsh
  | some Q =>
    obtain ⟨d, d0, d1, d2⟩ := decode_generated hd
    have hra := smul_rep ((scalarOf_lt a).trans p256n_lt) d2
    have hrb := smul_rep ((scalarOf_lt b).trans p256n_lt) d2
    have hx := same_x hra hrb (smul_ne (scalarOf_lt a) ha d1 d0) (smul_ne (scalarOf_lt b) hb d1 d0)
    have hplt : p256p < 256 ^ 32 := by decide +kernel
    have la := (affine_lt (smul (scalarOf a) Q)).1
    have lb := (affine_lt (smul (scalarOf b) Q)).1
    simp only [Option.some.injEq]
    have ht : toBE 32 (smul (scalarOf a) Q).affine.1 = toBE 32 (smul (scalarOf b) Q).affine.1 ↔
        (smul (scalarOf a) Q).affine.1 = (smul (scalarOf b) Q).affine.1 := by
      constructor
      · intro h
        have := congrArg ofBE h
        rwa [ofBE_toBE 32 _ (by omega), ofBE_toBE 32 _ (by omega)] at this
      · intro h; rw [h]
    rw [ht, hx, smul_neg_iff (scalarOf_lt a) (scalarOf_lt b) ha d1 d0]
    constructor
    · rintro (h | h)
      · exact .inl (smul_inj (scalarOf_lt a) (scalarOf_lt b) d1 d0 h)
      · exact .inr h
    · rintro (h | h)
      · exact .inl (by rw [h])
      · exact .inr h

/-- **C101, every connection** Whatever the server sent: if `open` succeeds with a suite of the crate, the key share in the
ServerHello is a point of the curve, there is a secret with that public key, and both directions have the keys that the owner
of that secret derives on its own from the client's ClientHello. -/
theorem C101_open {S : Suite} (hs : Shipped S) (cfg : Config) (p : Provider V) (v : V) {c c' : Conn} (hf : c.Fresh S)
    (hfit : HelloFits S cfg p) (ha : scalarOf p.secret ≠ 0) (h : Conn.open_ S cfg p v c = (.ok (), c')) :
    ∃ (s : Session) (owner dhe : Bytes) (x y : Nat), c.rx.bytes = s.received ++ c'.rx.bytes ∧
      (∃ r, Encodes s.sh r ∧ KeyShareOf r s.share) ∧ scalarOf owner ≠ 0 ∧ OnP256 x y ∧ EncodesPoint x y s.share ∧
      EncodesPoint x y (S.pubKey owner) ∧ AgreesOn s.hello owner (S.pubKey owner) dhe ∧
      c'.ks.client.st = trafficState S (clientApplicationTraffic S (cfg.psk.map (·.1)) dhe s.traffic) ∧
      c'.ks.server.st = trafficState S (serverApplicationTraffic S (cfg.psk.map (·.1)) dhe s.traffic) := by
  obtain ⟨s, hx⟩ := open_session S (C95_lawful S hs) cfg p v hf h
  obtain ⟨r, -, r2, r3⟩ := hx.received.serverHello
  obtain ⟨owner, x, y, o1, o2, o3, o4, o5, -⟩ := C101_owner hs ha hx.received.dhe
  obtain ⟨e1, e2, -⟩ := hs.p256
  refine ⟨s, owner, s.dhe, x, y, hx.bytes, ⟨r, r2, r3⟩, o1, o2, o3, o4, ?_, hx.clientKeys, hx.serverKeys⟩
  obtain ⟨binders, b1, b2, b3⟩ := hx.hello
  rw [b1, hello_unique S cfg p binders b2 b3]
  obtain ⟨dhe, g⟩ := C98_server_agrees hs cfg p hfit owner ha o1
  have h1 := C98_secret hs cfg p hfit ha o1 g
  obtain ⟨z, z1, z2⟩ := dh_agree p.secret owner ha o1
  rw [e2, z1] at h1
  injection h1 with h1
  rw [e1, e2, z2] at o5
  injection o5 with o5
  rw [e1, ← o5, h1]
  exact g

/-! ## Concrete cases -/

-- C101_owner, C101_spread: a server that sends the base point compressed (its y is odd); the client's secret is the recorded one
set_option maxRecDepth 100000 in
example : OnP256 p256gx p256gy ∧ EncodesPoint p256gx p256gy (3 :: toBE 32 p256gx) ∧
    (aes256GcmSha384 false).dh recSecret (3 :: toBE 32 p256gx) ≠ none ∧ scalarOf recSecret ≠ 0 ∧ scalarOf [7] ≠ 0 ∧
    scalarOf recSecret ≠ scalarOf [7] := by
  have h1 : OnP256 p256gx p256gy := ⟨by decide +kernel, by decide +kernel, by decide +kernel⟩
  have h2 : EncodesPoint p256gx p256gy (3 :: toBE 32 p256gx) := .inr (by decide +kernel)
  exact ⟨h1, h2, (C101_accepted ⟨false, .inr rfl⟩ _ _).mpr ⟨_, _, h1, h2⟩, rec_scalar, by decide +kernel, by decide +kernel⟩

-- C101_accepted: (1, 1) and (0, 0) are not on the curve, and coordinates are below the prime
set_option maxRecDepth 100000 in
example : p256Dh [7] (4 :: (toBE 32 1 ++ toBE 32 1)) = none ∧ p256Dh [7] (4 :: List.replicate 64 0) = none ∧
    p256Dh [7] (4 :: List.replicate 64 255) = none ∧ p256Dh [7] [0] = none := by decide +kernel

-- C101_open: a connection with OpenSSL
example : ∃ c c', Conn.Fresh (aes256GcmSha384 false) c ∧ c.rx.bytes = recRx2 ∧
    Conn.open_ (aes256GcmSha384 false) (recCfg []) (recProvider.provider (p256Lib derTags)) () c = (.ok (), c') ∧
    HelloFits (aes256GcmSha384 false) (recCfg []) (recProvider.provider (V := Unit) (p256Lib derTags)) ∧
    scalarOf (recProvider.provider (V := Unit) (p256Lib derTags)).secret ≠ 0 := by
  obtain ⟨c, c', h1, h2, h3⟩ := recRun_opens openssl_client_auth
  exact ⟨c, c', h1, h2, h3, rec_fits, rec_scalar⟩

end ETls
