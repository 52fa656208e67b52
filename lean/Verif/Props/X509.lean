import Verif.Props.Der
import Verif.Props.HonestAuth

/-!
# The native verifier on concrete certificates (C81)

With the decoder of `Verif.Model.Der` in place of the abstract one, what the native verifier accepts is a chain of DER
certificates.
-/

namespace ETls

open Spec (octets derLength Element Tagged Each IsAny IsCertificate WithinLimits FirstElement IssuedBy ValidAt HasDns DnsNameOf
  CommonNameOf LeadsTo SignedByLeaf HasDnsName HasCommonName SignedUnder DerLeadsTo DerSignedByLeaf ValidSignature HostMatches
  certificateAlgorithms signatureSchemes schemeAlgorithms Session dnsValues DerSan NamesReadable DerLastCommonName DerChain GeneralNames
  SanNames SubjectFits NamesFit LastCommonName IssuedWith Enabled dnsNames ValidChain SignedWith AuthFlight ServerFlight)

variable (T : DerTags)

namespace Der

/-- The header of an element. -/
theorem header_element {tag : UInt8} {n : Nat} (hk : T.known tag = true) (hn : n < 2 ^ 32) (r : Bytes) :
    header T (tag :: derLength n ++ r) = some (1 + (derLength n).length, n) := by
  have h := (length_reads (derLength n ++ r) n r).2 ⟨_, ⟨hn, rfl⟩, rfl⟩
  simp only [List.cons_append, header, h, hk, if_true, List.length_append]
  rw [show (derLength n).length + r.length - r.length = (derLength n).length by omega]

theorem header_some {b : Bytes} {h n : Nat} (hb : header T b = some (h, n)) :
    ∃ tag r, T.known tag = true ∧ n < 2 ^ 32 ∧ b = tag :: derLength n ++ r ∧ h = 1 + (derLength n).length := by
  unfold header at hb
  split at hb
  · cases hb
  · rename_i tag r
    split at hb
    · cases hb
    · rename_i n' r' hl
      split at hb
      · rename_i hk
        simp only [Option.some.injEq, Prod.mk.injEq] at hb
        obtain ⟨rfl, rfl⟩ := hb
        obtain ⟨e, ⟨h1, rfl⟩, rfl⟩ := (length_reads _ _ _).1 hl
        refine ⟨tag, r', hk, h1, rfl, ?_⟩
        simp only [List.length_append]
        omega
      · cases hb

/-- Header, value and rest. -/
theorem headed {hd value rest : Bytes} (h : header T (hd ++ value ++ rest) = some (hd.length, value.length)) :
    ∃ tag, hd.head? = some tag ∧ IsAny T ⟨tag, value⟩ (hd ++ value) := by
  obtain ⟨tag, r, h1, h2, h3, h4⟩ := header_some T h
  have : hd = tag :: derLength value.length := by
    have := congrArg (List.take hd.length) h3
    rw [List.append_assoc, List.take_left' rfl, List.take_left' (by rw [h4]; simp; omega)] at this
    exact this
  subst this
  exact ⟨tag, rfl, h1, h2, rfl⟩

theorem header_any {tag : UInt8} {value e : Bytes} (h : IsAny T ⟨tag, value⟩ e) (rest : Bytes) :
    ∃ hd, e = hd ++ value ∧ hd.head? = some tag ∧ header T (hd ++ value ++ rest) = some (hd.length, value.length) := by
  obtain ⟨h1, h2, rfl⟩ := h
  refine ⟨tag :: derLength value.length, rfl, rfl, ?_⟩
  rw [List.append_assoc, header_element T h1 h2]
  simp [Nat.add_comm]

end Der

open Der

variable {L : PkiLib}

theorem withDer_fromDer {b : Bytes} {dc : DecodedCert} (h : (L.withDer T).fromDer b = some dc) :
    ∃ c tbs, IsCertificate T c tbs b ∧ WithinLimits c ∧ dc = c.view := by
  obtain ⟨c, h1, rfl⟩ := Option.map_eq_some_iff.1 h
  obtain ⟨⟨tbs, h2⟩, h3⟩ := (C80_der T b c).1 h1
  exact ⟨c, tbs, h2, h3, rfl⟩

/-- The bytes whose signature the code checks are the to-be-signed part. -/
theorem firstElement_tbs {c : Cert} {tbs b x : Bytes} (hc : IsCertificate T c tbs b) :
    FirstElement (L.withDer T) b x ↔ x = tbs := by
  obtain ⟨⟨ct, h1, -⟩, alg, sig, -, -, h2⟩ := hc
  have k30 : T.known 0x30 = true := known T (by decide)
  have e1 : ∀ r, header T (tbs ++ r) = some (1 + (derLength ct.length).length, ct.length) := by
    intro r
    rw [h1.2, List.append_assoc]
    exact header_element T k30 h1.1 _
  have e2 : header T b = some (1 + (derLength (tbs ++ alg ++ sig).length).length, (tbs ++ alg ++ sig).length) := by
    rw [h2.2]
    exact header_element T k30 h2.1 _
  have lt : tbs.length = 1 + (derLength ct.length).length + ct.length := by
    have := congrArg List.length h1.2
    simp only [List.length_append, List.length_cons] at this
    omega
  constructor
  · rintro ⟨outer, rest, n, h, m, k1, k2, k3, k4, k5, k6⟩
    replace k2 : header T b = some (outer.length, n) := k2
    replace k4 : header T (x ++ rest) = some (h, m) := k4
    rw [e2] at k2
    simp only [Option.some.injEq, Prod.mk.injEq] at k2
    obtain ⟨k2, -⟩ := k2
    have hb := h2.2
    rw [k1] at hb
    have hrest : x ++ rest = tbs ++ alg ++ sig := by
      have := congrArg (List.drop outer.length) hb
      rw [List.append_assoc, List.drop_left' rfl, List.drop_left' (by rw [← k2]; simp; omega)] at this
      exact this
    rw [hrest, List.append_assoc, e1] at k4
    simp only [Option.some.injEq, Prod.mk.injEq] at k4
    obtain ⟨rfl, rfl⟩ := k4
    have := congrArg (List.take x.length) hrest
    rw [List.take_left' rfl, List.append_assoc, List.take_left' (by omega)] at this
    exact this
  · rintro rfl
    refine ⟨0x30 :: derLength (x ++ alg ++ sig).length, alg ++ sig, (x ++ alg ++ sig).length, _, _, ?_, ?_, ?_,
      e1 (alg ++ sig), lt, ?_⟩
    · rw [h2.2]; simp
    · show header T b = _
      rw [e2]; simp [Nat.add_comm]
    · rw [h2.2]; rfl
    · rw [h1.2]; rfl

/-- **C80** A byte string is the encoding of at most one certificate, with one to-be-signed part. -/
theorem C80_unique {c c' : Cert} {tbs tbs' b : Bytes} (h : IsCertificate T c tbs b) (h' : IsCertificate T c' tbs' b) :
    c = c' ∧ tbs = tbs' := by
  refine ⟨isCertificate_unique T h h', ?_⟩
  have h1 := (firstElement_tbs (L := ⟨fun _ => none, fun _ => none, (by intro b h n hb; cases hb), fun _ => false,
    fun _ _ => false, fun _ _ => false, fun _ _ _ _ => false⟩) T h).2 rfl
  exact (firstElement_tbs T h').1 h1

theorem asBytes_some {s : BitStr} {b : Bytes} : s.asBytes = some b ↔ s.unused = 0 ∧ s.bytes = b := by
  unfold BitStr.asBytes
  split
  · rename_i h; simp [h]
  · rename_i h; simp [h]

theorem issuedBy_concrete {issuer cert : Bytes} (h : IssuedBy (L.withDer T) issuer cert) :
    ∃ ci tbsi c tbs, IsCertificate T ci tbsi issuer ∧ IsCertificate T c tbs cert ∧ SignedUnder L ci c tbs := by
  obtain ⟨di, dc, key, algo, tbs', sig, h1, h2, h3, h4, h5, h6, h7⟩ := h
  obtain ⟨ci, tbsi, k1, -, rfl⟩ := withDer_fromDer T h1
  obtain ⟨c, tbs, k2, -, rfl⟩ := withDer_fromDer T h2
  obtain rfl := (firstElement_tbs T k2).1 h6
  obtain ⟨m1, rfl⟩ := asBytes_some.1 h3
  obtain ⟨m2, rfl⟩ := asBytes_some.1 h5
  exact ⟨ci, tbsi, c, tbs', k1, k2, algo, h4, m1, m2, h7⟩

theorem hasDns_concrete {name content : Bytes} (h : HasDns (L.withDer T) name content) :
    ∃ as before dns rest, Each (IsAny T) as before ∧ Element 0x82 name dns ∧ content = before ++ dns ++ rest := by
  induction h with
  | here hd rest h ht =>
    obtain ⟨tag, h1, h2⟩ := headed T h
    rw [ht] at h1
    cases h1
    exact ⟨[], [], hd ++ name, rest, .nil, h2.2, rfl⟩
  | later hd value rest h hr ih =>
    obtain ⟨tag, h1, h2⟩ := headed T h
    obtain ⟨as, before, dns, r, k1, k2, rfl⟩ := ih
    exact ⟨⟨tag, value⟩ :: as, hd ++ value ++ before, dns, r, .cons _ _ _ _ h2 k1, k2, by simp⟩

theorem dnsName_concrete {c : Cert} {name : Bytes} (h : DnsNameOf (L.withDer T) c.view name) : HasDnsName T c name := by
  obtain ⟨xs, e, hd, content, rest, h1, h2, h3, h4, h5, h6, h7, h8⟩ := h
  obtain ⟨as, before, dns, r, k1, k2, k3⟩ := hasDns_concrete T h8
  rw [h5] at h6
  obtain ⟨tag, m1, m2⟩ := headed T h6
  rw [h7] at m1
  cases m1
  exact ⟨xs, e, hd ++ content, rest, content, as, before, dns, r, h1, h2, h3, h4, m2.2, h5, k1, k2, k3⟩

theorem commonName_concrete {c : Cert} {name : Bytes} (h : CommonNameOf c.view name) : HasCommonName c name := by
  obtain ⟨rdn, h1, a, h2, h3, h4⟩ := h
  obtain ⟨rdn', k1, rfl⟩ := List.mem_map.1 h1
  obtain ⟨a', k2, rfl⟩ := List.mem_map.1 h2
  exact ⟨rdn', k1, a', k2, h3, h4⟩

/-- A chain for the code with this decoder is a chain of DER certificates. -/
theorem leadsTo_concrete {now : Option Nat} {ca : CertEntry} {host : Option Bytes} {certs : List Bytes}
    (h : LeadsTo (L.withDer T) now ca host certs) : DerLeadsTo T L now ca host certs := by
  constructor
  · intro i cert hi
    obtain ⟨⟨dc, h1, h2⟩, issuer, h3, h4⟩ := h.1 i cert hi
    obtain ⟨ci, tbsi, c, tbs, k1, k2, k4⟩ := issuedBy_concrete T h4
    obtain ⟨c', tbs', m1, -, rfl⟩ := withDer_fromDer T h1
    obtain ⟨rfl, rfl⟩ := C80_unique T k2 m1
    exact ⟨c, tbs, issuer, ci, tbsi, k2, h3, k1, h2, k4⟩
  · intro name hn
    obtain ⟨leaf, rest, dc, cn, h1, h2, h3, h4⟩ := h.2 name hn
    obtain ⟨c, tbs, m1, -, rfl⟩ := withDer_fromDer T h2
    exact ⟨leaf, rest, c, tbs, cn, h1, m1, h3.imp (dnsName_concrete T) commonName_concrete, h4⟩

theorem signedByLeaf_concrete {certs : List Bytes} {code : Nat} {content sig : Bytes}
    (h : SignedByLeaf (L.withDer T) certs code content sig) : DerSignedByLeaf T L certs code content sig := by
  obtain ⟨leaf, rest, dc, key, scheme, algo, h1, h2, h3, h4, h5, h6⟩ := h
  obtain ⟨c, tbs, m1, -, rfl⟩ := withDer_fromDer T h2
  obtain ⟨m2, rfl⟩ := asBytes_some.1 h3
  exact ⟨leaf, rest, c, tbs, scheme, algo, h1, m1, m2, h4, h5, h6⟩

/-- **C81** If the native verifier accepts a certificate list, every entry is, byte for byte, the DER encoding of a certificate
that is within its period and whose signature over the encoded to-be-signed part verifies under the key in the next one, the
last one under that in the CA; and the names compared with the host are those of the first one. -/
theorem C81_chain (S : Suite) (F : Features) (now : Option Nat) (N : Nat) (tr : Bytes) (m : CertMsg) (v v' : PkiVerifier)
    (h : (pkiOps (L.withDer T) S F now N).verifyCertificate tr m v = (.ok (), v')) :
    ∃ certs : List Bytes, m.entries = certs.map .x509 ∧ DerLeadsTo T L now v.ca v.host certs := by
  obtain ⟨certs, h1, h2, h3⟩ := C51_chain S now N tr m v v' h
  refine ⟨certs, h1, leadsTo_concrete T ⟨?_, h3⟩⟩
  rw [← h1]
  exact h2

theorem Authenticated.mono {A A' : List Bytes → Prop} {B B' : List Bytes → Nat → Bytes → Bytes → Prop} {S : Suite} {x : Session}
    (h : Authenticated A B S x) (ha : ∀ c, A c → A' c) (hb : ∀ c n m s, B c n m s → B' c n m s) : Authenticated A' B' S x := by
  refine ⟨fun before m ctx es after hm => ha _ (h.1 before m ctx es after hm), fun before m code sig after hm => ?_⟩
  obtain ⟨a, mc, ctx, es, b, h1, h2, h3⟩ := h.2 before m code sig after hm
  exact ⟨a, mc, ctx, es, b, h1, h2, hb _ _ _ _ h3⟩

/-- **C81** The same for a whole handshake. -/
theorem C81_native (S : Suite) (hS : S.Lawful) (F : Features) (now : Option Nat) (N : Nat) (cfg : Config)
    (p : Provider PkiVerifier) (ca : CertEntry) {c c' : Conn} (hf : c.Fresh S)
    (hv : p.verifier = some (pkiOps (L.withDer T) S F now N))
    (h : Conn.open_ S cfg p (PkiVerifier.new ca) c = (.ok (), c')) :
    ∃ x : Session, x.Received S (cfg.psk.map (·.1)) p.secret ∧ c.rx.bytes = x.received ++ c'.rx.bytes ∧
      Authenticated (DerLeadsTo T L now ca cfg.serverName) (DerSignedByLeaf T L) S x := by
  obtain ⟨-, x, h1, h2, h3⟩ := C60_native S hS (L.withDer T) F now N cfg p ca hf hv h
  exact ⟨x, h1, h2, h3.mono (fun _ => leadsTo_concrete T) (fun _ _ _ _ => signedByLeaf_concrete T)⟩

/-! ## Chains that are accepted -/

theorem fromDer_of {c : Cert} {tbs b : Bytes} (h : IsCertificate T c tbs b) (hl : WithinLimits c) :
    (L.withDer T).fromDer b = some c.view := by
  show (certificate T b).map Cert.view = _
  rw [(C80_der T b c).2 ⟨⟨tbs, h⟩, hl⟩]
  rfl

theorem generalNames_of {as : List Any} {b : Bytes} (h : Each (IsAny T) as b) :
    GeneralNames (L.withDer T) b (as.map fun a => (a.tag, a.value)) := by
  induction h with
  | nil => exact .nil
  | cons a as e b h hs ih =>
    obtain ⟨hd, rfl, h2, h3⟩ := header_any T h b
    exact .cons hd a.value b a.tag _ h3 h2 ih

theorem dnsNames_of (as : List Any) : dnsNames (as.map fun a => (a.tag, a.value)) = dnsValues as := by
  induction as with
  | nil => rfl
  | cons a as ih =>
    simp only [List.map_cons, dnsNames, dnsValues, List.filter_cons]
    split
    · rename_i h
      simp only [h, decide_true, if_true, List.map_cons, ih, dnsValues]
    · rename_i h
      simp only [h, decide_false, Bool.false_eq_true, if_false, ih, dnsValues]

theorem sanNames_of {c : Cert} {names : List Bytes} (h : DerSan T c names) : SanNames (L.withDer T) c.view names := by
  cases h with
  | absent h => exact .absent h
  | present pre post e content as h hid hothers htag hvalue hnames =>
    rw [← dnsNames_of]
    have hv := hvalue
    obtain ⟨k1, k2⟩ := hv
    have hh : Der.header T e.value = some ((0x30 :: derLength content.length).length, content.length) := by
      rw [k2]
      have := header_element T (known T (tag := 0x30) (by decide)) k1 content
      rw [this]
      simp [Nat.add_comm]
    exact .present pre post e (0x30 :: derLength content.length) content [] _ h hid hothers htag (by rw [List.append_nil]; exact k2)
      hh rfl (generalNames_of T hnames)

theorem subjectFits_of {c : Cert}
    (h : ∀ rdn ∈ c.tbs.subject, ∃ a as, rdn = a :: as ∧ (a.oid = [2, 5, 4, 3] → a.value.value.length ≤ 64)) :
    SubjectFits c.view := by
  intro rdn hr
  obtain ⟨rdn', h1, rfl⟩ := List.mem_map.1 hr
  obtain ⟨a, as, rfl, h2⟩ := h rdn' h1
  exact ⟨_, _, rfl, h2⟩

theorem lastCommonName_of {c : Cert} {name : Bytes} (h : DerLastCommonName L c name) :
    LastCommonName (L.withDer T) c.view name := by
  obtain ⟨pre, a, as, post, h1, h2, h3, h4, h5⟩ := h
  refine ⟨pre.map (·.map fun a => ⟨a.oid, a.value.value⟩), as.map fun a => ⟨a.oid, a.value.value⟩,
    post.map (·.map fun a => ⟨a.oid, a.value.value⟩), ?_, h4, ?_⟩
  · show c.tbs.subject.map _ = _
    rw [h1, ← h2, ← h3]
    simp
  · intro rdn hr x hx
    obtain ⟨rdn', k1, rfl⟩ := List.mem_map.1 hr
    obtain ⟨a', k2, rfl⟩ := List.mem_map.1 hx
    exact h5 rdn' k1 a' k2

theorem validChain_of {F : Features} {now : Option Nat} {ca : CertEntry} {host : Bytes} {certs : List Bytes}
    (h : DerChain T L F now ca host certs) : ValidChain (L.withDer T) F now ca host certs := by
  constructor
  · intro i cert hi
    obtain ⟨c, tbs, issuer, ci, tbsi, names, h1, h2, h3, h4, h5, h6, ⟨algo, k1, k2, k3, k4⟩, h8, h9⟩ := h.chain i cert hi
    refine ⟨⟨_, fromDer_of T h1 h2, h6⟩, ⟨names, _, fromDer_of T h1 h2, subjectFits_of h9.subject, sanNames_of T h9.san, h9.fit⟩,
      issuer, h3, _, _, _, algo, tbs, _, fromDer_of T h4 h5, fromDer_of T h1 h2, asBytes_some.2 ⟨k2, rfl⟩, k1, h8 algo k1,
      asBytes_some.2 ⟨k3, rfl⟩, (firstElement_tbs T h1).2 rfl, k4⟩
  · obtain ⟨leaf, rest, c, tbs, names, name, h1, h2, h3, h4, h5, h6⟩ := h.leaf
    exact ⟨leaf, rest, _, names, name, h1, fromDer_of T h2 h3, sanNames_of T h4.san, h4.fit, subjectFits_of h4.subject, h5,
      h6.imp id (lastCommonName_of T)⟩

/-- **C81, converse** DER certificates within the limits of the library that lead to the CA are accepted. -/
theorem C81_accepted (S : Suite) (F : Features) (now : Option Nat) (N : Nat) (tr : Bytes) (m : CertMsg) (v : PkiVerifier)
    (certs : List Bytes) (host : Bytes) (hEd : ∀ k, L.keyOk .ed25519 k = true → k.length = 32)
    (hm : m.entries = certs.map .x509) (hctx : m.requestContext.length ≤ 256) (hN : m.rawEntries.length ≤ N)
    (hh : v.host = some host) (h : DerChain T L F now v.ca host certs) :
    ((pkiOps (L.withDer T) S F now N).verifyCertificate tr m v).1 = .ok () := by
  have hv := validChain_of T h
  obtain ⟨leaf, rest, dc, names, name, k1, k2, k3, k4, k5, k6, k7⟩ := hv.leaf
  exact C64_valid_chain_accepted S now N tr m v certs leaf rest dc names host name hEd hm hctx hN hv.chain k1 k2 k3 k4 k5 hh k6 k7

/-- **C81** A conforming server (as in C46) whose flight has one Certificate, with such a chain for the configured host and the
CA, and after it one CertificateVerify, with a signature under the key in the leaf, is accepted: `open` returns Ok and has
consumed exactly the flight. -/
theorem C81_open (S : Suite) (hS : S.Lawful) (F : Features) (now : Option Nat) (N : Nat) (cfg : Config) (p : Provider PkiVerifier)
    (ca : CertEntry) {c : Conn} {x : ServerFlight} {ms : List Bytes} {rest : Bytes} (hm : Meets S cfg p c x ms rest)
    (hv : p.verifier = some (pkiOps (L.withDer T) S F now N)) (hEd : ∀ k, L.keyOk .ed25519 k = true → k.length = 32)
    (host : Bytes) (hn : cfg.serverName = some host) (hlen : host.length ≤ 64)
    (ha : AuthFlight (DerChain T L F now ca host) (fun certs code content sig =>
      ∃ leaf rest c tbs scheme algo, certs = leaf :: rest ∧ IsCertificate T c tbs leaf ∧ WithinLimits c ∧ c.tbs.key.unused = 0 ∧
        (scheme, code) ∈ signatureSchemes ∧ (scheme, algo) ∈ schemeAlgorithms ∧ Enabled F algo ∧
        ValidSignature L algo c.tbs.key.bytes content sig) S N (helloMsg S cfg p) x) :
    ∃ c', Conn.open_ S cfg p (PkiVerifier.new ca) c = (.ok (), c') ∧ c'.opened = true ∧ c'.rx.bytes = rest := by
  refine C69_native_partial S hS now N cfg p ca hm hv hEd host hn hlen ?_
  obtain ⟨pre, mid, post, ctx, es, code, sig, h1, h2, h3, h4, leaf, r, c, tbs, scheme, algo, k1, k2, k3, k4, k5, k6, k7, k8⟩ := ha
  exact ⟨pre, mid, post, ctx, es, code, sig, h1, h2, h3, validChain_of T h4, leaf, r, _, _, scheme, algo, k1,
    fromDer_of T k2 k3, asBytes_some.2 ⟨k4, rfl⟩, k5, k6, k7, k8⟩

/-! ## Concrete certificates -/

/-- An element of at most 255 octets. -/
def exTlv (tag : UInt8) (c : Bytes) : Bytes :=
  if c.length < 128 then tag :: UInt8.ofNat c.length :: c else tag :: 0x81 :: UInt8.ofNat c.length :: c

/-- A library that knows all tags of one octet. -/
def exTags : DerTags := ⟨fun _ => true, fun _ _ => rfl⟩

def exEcdsa : Bytes := exTlv 0x30 (exTlv 0x06 [0x2A, 0x86, 0x48, 0xCE, 0x3D, 0x04, 0x03, 0x02])
def exEd25519 : Bytes := exTlv 0x30 (exTlv 0x06 [0x2B, 0x65, 0x70])
def exAttr (cn : String) : Bytes := exTlv 0x30 (exTlv 0x06 [0x55, 0x04, 0x03] ++ exTlv 0x0C (ascii cn))
def exRdn (cn : String) : Bytes := exTlv 0x31 (exAttr cn)
def exPeriod : Bytes := exTlv 0x30 (exTlv 0x17 (ascii "700101000010Z") ++ exTlv 0x18 (ascii "19700101000050Z"))
def exKey (key : UInt8) : Bytes := exTlv 0x30 (exEcdsa ++ exTlv 0x03 [0, key])
def exSan (names : List String) : Bytes :=
  exTlv 0x30 (exTlv 0x06 [0x55, 0x1D, 0x11] ++ exTlv 0x04 (exTlv 0x30 (names.flatMap fun n => exTlv 0x82 (ascii n))))
/-- A critical extension 1.2.3 that nobody knows. -/
def exCritical : Bytes := exTlv 0x30 (exTlv 0x06 [0x2A, 0x03] ++ exTlv 0x01 [0xFF] ++ exTlv 0x04 [])

/-- A short extension. -/
def exSmall : Bytes := exTlv 0x30 (exTlv 0x06 [0x2A] ++ exTlv 0x04 [])

/-- A certificate with the algorithm named in the signed part, the elements of the subject, the key and the extensions, signed
with the toy signature of the key `signer`. -/
def exDer (signer : UInt8) (inner : Bytes) (subject : Bytes) (key : UInt8) (exts : Bytes) : Bytes :=
  let tbs := exTlv 0x30 (exTlv 0xA0 (exTlv 0x02 [2]) ++ exTlv 0x02 [0x2A] ++ inner ++ exTlv 0x30 (exRdn "ca") ++ exPeriod ++
    exTlv 0x30 subject ++ exKey key ++ exTlv 0xA3 (exTlv 0x30 exts))
  exTlv 0x30 (tbs ++ exEcdsa ++ exTlv 0x03 (0 :: mix 4 ([signer] ++ tbs)))

def exDerCa : Bytes := exDer 1 exEcdsa (exRdn "ca") 1 []
def exDerInter : Bytes := exDer 1 exEcdsa (exRdn "i") 2 []
def exDerLeaf : Bytes := exDer 2 exEcdsa (exRdn "leaf") 3 (exSan ["a.b", "*.example.com"])

def exDerVerifier (host : String) : PkiVerifier := ⟨.x509 exDerCa, some (ascii host), none, none⟩

/-- What the leaf says. -/
def exDerCert : Cert :=
  ⟨⟨2, [0x2A], ⟨[1, 2, 840, 10045, 4, 3, 2], none⟩, [[⟨[2, 5, 4, 3], ⟨0x0C, ascii "ca"⟩⟩]], 10, 50,
    [[⟨[2, 5, 4, 3], ⟨0x0C, ascii "leaf"⟩⟩]], ⟨[1, 2, 840, 10045, 4, 3, 2], none⟩, ⟨0, [3]⟩, none, none,
    some [⟨[2, 5, 29, 17], none, 4, exTlv 0x30 (exTlv 0x82 (ascii "a.b") ++ exTlv 0x82 (ascii "*.example.com"))⟩]⟩,
   ⟨[1, 2, 840, 10045, 4, 3, 2], none⟩, ⟨0, mix 4 (2 :: ((exDerLeaf.drop 3).take 142))⟩⟩

-- C80: a certificate and its encoding; anything cut off, added or not in the shortest form is refused
set_option maxRecDepth 20000 in
theorem exDerLeaf_decodes : certificate exTags exDerLeaf = some exDerCert := by decide +kernel

example : (∃ tbs, IsCertificate exTags exDerCert tbs exDerLeaf) ∧ WithinLimits exDerCert :=
  (C80_der exTags exDerLeaf exDerCert).1 exDerLeaf_decodes
example : certificate exTags (exDerLeaf ++ [0]) = none := by decide +kernel
example : certificate exTags exDerLeaf.dropLast = none := by decide +kernel
example : length [0x81, 0x7F] = none ∧ length [0x82, 0x00, 0x80] = none ∧ length [0x80] = none := by decide
example : utcContent (ascii "700230000010Z") = none ∧ utcContent (ascii "7001010000+0Z") = none := by decide +kernel
example : ∃ r, utcContent (ascii "240229120000Z") = some (1709208000, r) := ⟨[], by decide +kernel⟩

-- C81: the chain is accepted for a host of the leaf, at the right time and in the right order only
theorem exDer_accepted : ((pkiOps (toyPki.withDer exTags) toySuite allFeatures (some 50) 1000).verifyCertificate []
    (toyMsg [exDerLeaf, exDerInter]) (exDerVerifier "www.example.com")).1 = .ok () := by decide +kernel
example : ((pkiOps (toyPki.withDer exTags) toySuite allFeatures (some 51) 1000).verifyCertificate []
    (toyMsg [exDerLeaf, exDerInter]) (exDerVerifier "www.example.com")).1 = .err .invalidCertificate := by decide +kernel
example : ((pkiOps (toyPki.withDer exTags) toySuite allFeatures (some 50) 1000).verifyCertificate []
    (toyMsg [exDerInter, exDerLeaf]) (exDerVerifier "www.example.com")).1 = .err .invalidCertificate := by decide +kernel

example : DerLeadsTo exTags toyPki (some 50) (.x509 exDerCa) (some (ascii "www.example.com")) [exDerLeaf, exDerInter] := by
  rcases hx : (pkiOps (toyPki.withDer exTags) toySuite allFeatures (some 50) 1000).verifyCertificate []
    (toyMsg [exDerLeaf, exDerInter]) (exDerVerifier "www.example.com") with ⟨r, v'⟩
  have hr : r = .ok () := by have := exDer_accepted; rw [hx] at this; exact this
  subst hr
  obtain ⟨certs, h1, h2⟩ := C81_chain exTags _ _ _ _ _ _ _ _ hx
  have : certs = [exDerLeaf, exDerInter] := by
    have : List.map CertEntry.x509 [exDerLeaf, exDerInter] = List.map CertEntry.x509 certs := h1
    exact ((List.map_inj_right (fun a b hab => by injection hab)).1 this).symm
  subst this
  exact h2

/-! ## C82, C83, C84 -/

theorem decodes_any {K : DerCaps} {b : Bytes} {P : Cert → Bool} (h : (certificateOf T K b).any P = true) :
    ∃ c tbs, IsCertificate T c tbs b ∧ P c = true := by
  cases hc : certificateOf T K b with
  | none => rw [hc] at h; cases h
  | some c =>
    rw [hc] at h
    obtain ⟨⟨tbs, h1⟩, -⟩ := (certificateOf_iff T K b c).1 hc
    exact ⟨c, tbs, h1, h⟩

/-- **C82, refuted** A certificate is accepted although the signature algorithm it was signed with is not the one named in its
signed part (RFC 5280 section 4.1.1.2). -/
theorem C82_refuted : ∃ (T : DerTags) (L : PkiLib) (m : CertMsg) (v : PkiVerifier) (leaf tbs : Bytes) (c : Cert),
    m.entries = [.x509 leaf] ∧ IsCertificate T c tbs leaf ∧ c.tbs.signature ≠ c.sigAlg ∧
    ((pkiOps (L.withDer T) toySuite allFeatures (some 20) 1000).verifyCertificate [] m v).1 = .ok () := by
  obtain ⟨c, tbs, h1, h2⟩ := decodes_any exTags (K := codeCaps) (b := exDer 1 exEd25519 (exRdn "x") 3 [])
    (P := fun c => c.tbs.signature ≠ c.sigAlg) (by decide +kernel)
  exact ⟨exTags, toyPki, toyMsg [exDer 1 exEd25519 (exRdn "x") 3 []], exDerVerifier "x", _, tbs, c, rfl, h1, of_decide_eq_true h2,
    by decide +kernel⟩

/-- **C83, refuted** A certificate with a critical extension that the code does not know is accepted (RFC 5280 section 4.2). -/
theorem C83_refuted : ∃ (T : DerTags) (L : PkiLib) (m : CertMsg) (v : PkiVerifier) (leaf tbs : Bytes) (c : Cert)
    (xs : List CertExt) (e : CertExt),
    m.entries = [.x509 leaf] ∧ IsCertificate T c tbs leaf ∧ c.tbs.extensions = some xs ∧ e ∈ xs ∧ e.critical = some true ∧
    e.id = [1, 2, 3] ∧
    ((pkiOps (L.withDer T) toySuite allFeatures (some 20) 1000).verifyCertificate [] m v).1 = .ok () := by
  obtain ⟨c, tbs, h1, h2⟩ := decodes_any exTags (K := codeCaps) (b := exDer 1 exEcdsa (exRdn "x") 3 exCritical)
    (P := fun c => c.tbs.extensions = some [⟨[1, 2, 3], some true, 4, []⟩]) (by decide +kernel)
  exact ⟨exTags, toyPki, toyMsg [exDer 1 exEcdsa (exRdn "x") 3 exCritical], exDerVerifier "x", _, tbs, c, _, _, rfl, h1,
    of_decide_eq_true h2, List.mem_cons_self, rfl, rfl, by decide +kernel⟩

-- C84: certificates beyond the limits: two attributes in one element of the subject, eight elements, thirteen extensions
example : ∃ c tbs, IsCertificate exTags c tbs (exDer 1 exEcdsa (exTlv 0x31 (exAttr "x" ++ exAttr "y")) 3 []) ∧ ¬ WithinLimits c := by
  obtain ⟨c, tbs, h1, h2⟩ := decodes_any exTags (K := ⟨20, 20, 20⟩) (b := exDer 1 exEcdsa (exTlv 0x31 (exAttr "x" ++ exAttr "y")) 3 [])
    (P := fun c => c.tbs.subject.any fun rdn => rdn.length == 2) (by decide +kernel)
  refine ⟨c, tbs, h1, fun h => ?_⟩
  obtain ⟨rdn, h3, h4⟩ := List.any_eq_true.1 h2
  have := h.subject.2 rdn h3
  simp only [beq_iff_eq] at h4
  omega

example : ∃ c tbs, IsCertificate exTags c tbs (exDer 1 exEcdsa ((List.replicate 8 (exRdn "x")).flatten) 3 []) ∧ ¬ WithinLimits c := by
  obtain ⟨c, tbs, h1, h2⟩ := decodes_any exTags (K := ⟨20, 20, 20⟩) (b := exDer 1 exEcdsa ((List.replicate 8 (exRdn "x")).flatten) 3 [])
    (P := fun c => c.tbs.subject.length == 8) (by decide +kernel)
  refine ⟨c, tbs, h1, fun h => ?_⟩
  have := h.subject.1
  simp only [beq_iff_eq] at h2
  omega

example : ∃ c tbs, IsCertificate exTags c tbs (exDer 1 exEcdsa [] 3 ((List.replicate 13 exSmall).flatten)) ∧ ¬ WithinLimits c := by
  obtain ⟨c, tbs, h1, h2⟩ := decodes_any exTags (K := ⟨20, 20, 20⟩) (b := exDer 1 exEcdsa [] 3 ((List.replicate 13 exSmall).flatten))
    (P := fun c => c.tbs.extensions.any fun xs => xs.length == 13) (by decide +kernel)
  refine ⟨c, tbs, h1, fun h => ?_⟩
  cases hx : c.tbs.extensions with
  | none => rw [hx] at h2; cases h2
  | some xs =>
    have := h.extensions xs hx
    rw [hx] at h2
    simp only [Option.any_some, beq_iff_eq] at h2
    omega

end ETls
