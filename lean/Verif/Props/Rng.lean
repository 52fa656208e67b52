import Verif.Model.Rng
import Verif.Props.KeyShare

/-! # C102: randomness is drawn afresh and used once -/

namespace ETls

open Spec Crypto

variable {V : Type} (S : Suite)

namespace Spec

/-- `n` bytes of a stream from position `pos`. -/
def cut (stream : Nat → UInt8) (pos n : Nat) : Bytes := (List.range n).map fun i => stream (pos + i)

/-- 32 bytes that are a private key of P-256 (SEC 1 section 3.2.1: a number between 1 and n - 1). -/
def IsSecret (b : Bytes) : Prop := b.length = 32 ∧ 0 < ofBE b ∧ ofBE b < p256n

/-- What a ClientHello takes from the stream at `pos`: the random is the next 32 bytes; then come `skips` blocks that are no
private keys, and a block that is. -/
structure Draws (stream : Nat → UInt8) (pos skips : Nat) (random secret : Bytes) : Prop where
  valid : IsSecret secret
  random : random = cut stream pos 32
  skipped : ∀ j < skips, ¬ IsSecret (cut stream (pos + 32 + 32 * j) 32)
  secret : secret = cut stream (pos + 32 + 32 * skips) 32

end Spec

theorem cut_length (stream : Nat → UInt8) (pos n : Nat) : (cut stream pos n).length = n := by simp [cut]

theorem Spec.IsSecret.scalar {b : Bytes} (h : IsSecret b) : scalarOf b = ofBE b ∧ scalarOf b ≠ 0 := by
  have : scalarOf b = ofBE b := Nat.mod_eq_of_lt h.2.2
  exact ⟨this, by rw [this]; exact h.2.1.ne'⟩

theorem Spec.Draws.random_length {stream : Nat → UInt8} {pos k : Nat} {random secret : Bytes} (h : Draws stream pos k random secret) :
    random.length = 32 := by rw [h.random, cut_length]

theorem secret_iff (fuel : Nat) (r r' : Rng) (b : Bytes) : r.secret fuel = some (b, r') ↔
    ∃ k, k < fuel ∧ (∀ j < k, ¬ IsSecret (cut r.stream (r.taken + 32 * j) 32)) ∧ b = cut r.stream (r.taken + 32 * k) 32 ∧
      IsSecret b ∧ r' = ⟨r.stream, r.taken + 32 * (k + 1)⟩ := by
  induction fuel generalizing r with
  | zero => simp [Rng.secret]
  | succ fuel ih =>
    have hb : (r.fillBytes 32).1 = cut r.stream r.taken 32 := rfl
    have hr : (r.fillBytes 32).2 = ⟨r.stream, r.taken + 32⟩ := rfl
    have hs : IsSecret (cut r.stream r.taken 32) ↔ 0 < ofBE (cut r.stream r.taken 32) ∧ ofBE (cut r.stream r.taken 32) < p256n :=
      ⟨fun h => h.2, fun h => ⟨cut_length _ _ _, h⟩⟩
    rw [Rng.secret, hb]
    split
    · next h =>
      rw [← hs] at h
      constructor
      · intro e
        rw [Option.some.injEq, Prod.ext_iff, hb, hr] at e
        obtain ⟨e1, e2⟩ := e
        refine ⟨0, by omega, by omega, e1.symm, ?_, e2.symm⟩
        have e1' : cut r.stream r.taken 32 = b := e1
        rw [← e1']; exact h
      · rintro ⟨k, -, h2, h3, h4, h5⟩
        have hk : k = 0 := by
          by_contra hc
          exact h2 0 (Nat.pos_of_ne_zero hc) h
        subst hk
        rw [Option.some.injEq, Prod.ext_iff, hb, hr]
        exact ⟨h3.symm, h5.symm⟩
    · next h =>
      rw [← hs] at h
      rw [hr, ih]
      simp only
      constructor
      · rintro ⟨k, h1, h2, h3, h4, h5⟩
        refine ⟨k + 1, by omega, ?_, ?_, h4, ?_⟩
        · intro j hj
          cases j with
          | zero => exact h
          | succ j =>
            have := h2 j (by omega)
            rwa [show r.taken + 32 * (j + 1) = r.taken + 32 + 32 * j by ring]
        · rw [h3]; congr 1; ring
        · rw [h5]; congr 1; ring
      · rintro ⟨k, h1, h2, h3, h4, h5⟩
        cases k with
        | zero => rw [h3] at h4; exact absurd h4 h
        | succ k =>
          refine ⟨k, by omega, ?_, ?_, h4, ?_⟩
          · intro j hj
            have := h2 (j + 1) (by omega)
            rwa [show r.taken + 32 * (j + 1) = r.taken + 32 + 32 * j by ring] at this
          · rw [h3]; congr 1; ring
          · rw [h5]; congr 1; ring

/-- **C102, what is drawn** A ClientHello takes its random and its secret from the generator as `Draws` says, in this order,
each byte once, and leaves the generator behind the last byte it took. -/
theorem C102_draws (fuel : Nat) (r r' : Rng) (random secret : Bytes) :
    r.clientHello fuel = some (random, secret, r') ↔
      ∃ k, k < fuel ∧ Draws r.stream r.taken k random secret ∧ r' = ⟨r.stream, r.taken + 64 + 32 * k⟩ := by
  unfold Rng.clientHello
  rw [Option.map_eq_some_iff]
  constructor
  · rintro ⟨⟨b, r1⟩, h1, h2⟩
    rw [secret_iff] at h1
    obtain ⟨k, a1, a2, a3, a4, a5⟩ := h1
    injection h2 with e1 e2
    injection e2 with e2 e3
    subst e1 e2 e3
    refine ⟨k, a1, ⟨a4, rfl, a2, a3⟩, ?_⟩
    rw [a5]
    show Rng.mk _ (r.taken + 32 + 32 * (k + 1)) = _
    congr 1; ring
  · rintro ⟨k, a1, h, h2⟩
    refine ⟨(secret, r'), ?_, by rw [h.random]; rfl⟩
    rw [secret_iff]
    refine ⟨k, a1, h.skipped, h.secret, h.valid, ?_⟩
    rw [h2]
    show _ = Rng.mk _ (r.taken + 32 + 32 * (k + 1))
    congr 1; ring

/-- **C102, no bias** Every private key of P-256 comes from exactly one block of 32 bytes, so that blocks drawn uniformly give
private keys drawn uniformly; and different private keys have different public keys. -/
theorem C102_unbiased (d : Nat) (hd : IsP256Secret d) : ∃! b : Bytes, IsSecret b ∧ scalarOf b = d := by
  have hlt : p256n < 256 ^ 32 := by decide +kernel
  have hd2 := hd.2
  have e : ofBE (toBE 32 d) = d := ofBE_toBE 32 _ (by omega)
  have hs : IsSecret (toBE 32 d) := ⟨toBE_length _ _, by rw [e]; exact hd.1, by rw [e]; exact hd.2⟩
  refine ⟨toBE 32 d, ⟨hs, by rw [hs.scalar.1, e]⟩, ?_⟩
  rintro b ⟨h1, h2⟩
  have := toBE_ofBE b
  rw [h1.1, ← h1.scalar.1, h2] at this
  exact this.symm

theorem C102_injective {a b : Bytes} (ha : IsSecret a) (hb : IsSecret b) (h : p256Public a = p256Public b) : a = b := by
  obtain ⟨x, h1, -⟩ := dh_agree [1] a (by decide +kernel) ha.scalar.2
  have hs : Shipped (aes128GcmSha256 false) := ⟨false, .inl rfl⟩
  obtain ⟨owner, x, y, o1, o2, o3, o4, -, o6, -⟩ := C101_owner hs (secret := [1]) (share := p256Public a) (by decide +kernel) h1
  have key : ∀ c, IsSecret c → p256Public c = p256Public a → scalarOf c = scalarOf owner := by
    intro c hc e
    refine o6 c hc.scalar.2 ?_
    show p256Public c = p256Public owner
    rw [e]
    have h4 : ∀ z, (p256Public z).length = 65 := p256Public_length
    have hne : ∀ t : UInt8, (t :: toBE 32 x).length ≠ 65 := by simp [toBE_length]
    rcases o3 with o3 | o3
    · rcases o4 with o4 | o4
      · exact o3.trans o4.symm
      · exact absurd ((congrArg List.length o4).symm.trans (h4 owner)) (hne _)
    · exact absurd ((congrArg List.length o3).symm.trans (h4 a)) (hne _)
  have e := (key a ha rfl).trans (key b hb h.symm).symm
  rw [ha.scalar.1, hb.scalar.1] at e
  have h1 := toBE_ofBE a
  have h2 := toBE_ofBE b
  rw [ha.1] at h1
  rw [hb.1] at h2
  rw [← h1, ← h2, e]

/-- **C102, on the wire** If `open` succeeds, the ClientHello on the wire has the random and the public key of the secret that
were drawn, and the keys of the connection come from the shared secret of that secret and the server's share. -/
theorem C102_open {S : Suite} (hs : Shipped S) (cfg : Config) (p : Provider V) (v : V) {c c' : Conn} (hf : c.Fresh S)
    (fuel : Nat) (r r' : Rng) (h : Conn.openRng S cfg p v fuel r c = some ((.ok (), c'), r')) :
    ∃ (x : Session) (k : Nat) (random secret : Bytes) (binders : List Bytes), Draws r.stream r.taken k random secret ∧
      r' = ⟨r.stream, r.taken + 64 + 32 * k⟩ ∧ c.rx.bytes = x.received ++ c'.rx.bytes ∧
      x.hello = (expectedHello cfg S.codePoint random (p256Public secret) binders).bytes ∧
      p256Dh secret x.share = some x.dhe ∧
      c'.ks.client.st = trafficState S (clientApplicationTraffic S (cfg.psk.map (·.1)) x.dhe x.traffic) ∧
      c'.ks.server.st = trafficState S (serverApplicationTraffic S (cfg.psk.map (·.1)) x.dhe x.traffic) := by
  unfold Conn.openRng at h
  rw [Option.map_eq_some_iff] at h
  obtain ⟨⟨random, secret, r1⟩, h1, h2⟩ := h
  injection h2 with h2 h3
  subst h3
  rw [C102_draws] at h1
  obtain ⟨k, -, h4, h5⟩ := h1
  obtain ⟨e1, e2, -⟩ := hs.p256
  obtain ⟨x, hx⟩ := open_session S (C95_lawful S hs) cfg _ v hf h2
  obtain ⟨binders, b1, -⟩ := hx.hello
  refine ⟨x, k, random, secret, binders, h4, h5, hx.bytes, ?_, ?_, hx.clientKeys, hx.serverKeys⟩
  · rw [b1, e1]
  · rw [← e2]; exact hx.received.dhe

/-- **C102, once** Two calls of `open` with the same generator, whatever their outcome, connection, configuration and provider, use
different bytes of it: the second begins where the first has stopped. -/
theorem C102_once (cfg₁ cfg₂ : Config) (p₁ p₂ : Provider V) (v₁ v₂ : V) (c₁ c₂ : Conn) (f₁ f₂ : Nat) (r r₁ r₂ : Rng)
    {x₁ x₂ : Res TlsError Unit × Conn} (h₁ : Conn.openRng S cfg₁ p₁ v₁ f₁ r c₁ = some (x₁, r₁))
    (h₂ : Conn.openRng S cfg₂ p₂ v₂ f₂ r₁ c₂ = some (x₂, r₂)) :
    ∃ k₁ k₂ random₁ secret₁ random₂ secret₂, Draws r.stream r.taken k₁ random₁ secret₁ ∧
      Draws r.stream (r.taken + 64 + 32 * k₁) k₂ random₂ secret₂ ∧ r₂ = ⟨r.stream, r.taken + 128 + 32 * (k₁ + k₂)⟩ ∧
      x₁ = Conn.open_ S cfg₁ { p₁ with random := random₁, secret := secret₁ } v₁ c₁ ∧
      x₂ = Conn.open_ S cfg₂ { p₂ with random := random₂, secret := secret₂ } v₂ c₂ := by
  unfold Conn.openRng at h₁ h₂
  rw [Option.map_eq_some_iff] at h₁ h₂
  obtain ⟨⟨a1, a2, a3⟩, h1, h2⟩ := h₁
  obtain ⟨⟨b1, b2, b3⟩, g1, g2⟩ := h₂
  injection h2 with h2 h3
  injection g2 with g2 g3
  subst h3 g3 h2 g2
  rw [C102_draws] at h1 g1
  obtain ⟨k, -, h4, rfl⟩ := h1
  obtain ⟨l, -, g4, rfl⟩ := g1
  refine ⟨k, l, a1, a2, b1, b2, h4, g4, ?_, rfl, rfl⟩
  show Rng.mk _ (r.taken + 64 + 32 * k + 64 + 32 * l) = _
  congr 1; ring

/-! ## Concrete cases -/

/-- A generator that gives the recorded random, a block that is too large, one that is zero, and the recorded secret. -/
def recRng : Rng :=
  ⟨fun i => (recProvider.random ++ (List.replicate 32 255 ++ (List.replicate 32 0 ++ recSecret))).getD i 7, 0⟩

-- C102_draws: two blocks are skipped
set_option maxRecDepth 100000 in
theorem recRng_draws : (recRng.clientHello 5).map (fun x => (x.1, x.2.1, x.2.2.taken)) = some (recProvider.random, recSecret, 128) := by
  decide +kernel

-- C102_open: a connection with OpenSSL, the random and the secret drawn from that generator
example : ∃ c c', Conn.Fresh (aes256GcmSha384 false) c ∧ Conn.openRng (aes256GcmSha384 false) (recCfg [])
    (recProvider.provider (p256Lib derTags)) () 5 recRng c = some ((.ok (), c'), ⟨recRng.stream, 128⟩) := by
  obtain ⟨c, c', h1, -, h3⟩ := recRun_opens openssl_client_auth
  refine ⟨c, c', h1, ?_⟩
  have hd : recRng.clientHello 5 = some (recProvider.random, recSecret, ⟨recRng.stream, 128⟩) := by
    have h := recRng_draws
    rw [Option.map_eq_some_iff] at h
    obtain ⟨x, h4, h5⟩ := h
    obtain ⟨k, -, -, h6⟩ := (C102_draws 5 recRng x.2.2 x.1 x.2.1).mp h4
    injection h5 with e1 e2
    injection e2 with e2 e3
    have : x.2.2 = ⟨recRng.stream, 128⟩ := by rw [h6] at e3 ⊢; exact congrArg (Rng.mk _) e3
    rw [h4, ← this, ← e1, ← e2]
  have hp : ∀ u : UnsecureProvider, ({ u.provider (p256Lib derTags) with random := u.random, secret := u.secret } : Provider Unit) =
      u.provider (p256Lib derTags) := fun _ => rfl
  have hq := hp recProvider
  rw [show recProvider.secret = recSecret from rfl] at hq
  rw [Conn.openRng, hd, Option.map_some]
  have h3' : Conn.open_ (aes256GcmSha384 false) (recCfg []) (recProvider.provider (p256Lib derTags)) () c = (.ok (), c') := h3
  dsimp only
  rw [hq, h3']

end ETls
