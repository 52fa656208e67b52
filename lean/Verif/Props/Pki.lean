import Verif.Spec.Pki
import Verif.Model.Webpki
import Verif.Props.Hostname
import Verif.Proofs.Session
import Verif.Proofs.Toy

/-! # C50 to C53: the certificate verifiers -/

namespace ETls
open Spec

variable {L : PkiLib} {F : Features}

theorem certAlgo_mem {a : AlgId} {algo : SigAlgo} (h : certAlgo F a = some algo) :
    (a, algo) ∈ certificateAlgorithms := by
  unfold certAlgo at h
  repeat' split at h
  all_goals first
    | (cases h; done)
    | (injection h with h; subst h; rename_i hc; (try rw [hc]); (try rw [hc.2]); decide)

theorem schemeAlgo_mem {x : SignatureScheme} {algo : SigAlgo} (h : schemeAlgo F x = some algo) :
    (x, algo) ∈ schemeAlgorithms := by
  cases x <;> simp only [schemeAlgo] at h <;>
    first
    | (cases h; done)
    | (injection h with h; subst h; decide)
    | (split at h <;> first | (cases h; done) | (injection h with h; subst h; decide))

theorem derSlice_some {n : Nat} {b v r : Bytes} (h : derSlice n b = some (v, r)) : b = v ++ r ∧ v.length = n := by
  unfold derSlice at h
  split at h
  · simp only [Option.some.injEq, Prod.mk.injEq] at h
    obtain ⟨rfl, rfl⟩ := h
    exact ⟨(List.take_append_drop _ _).symm, by rw [List.length_take]; omega⟩
  · cases h

theorem header_split {b : Bytes} {h n : Nat} (hh : L.header b = some (h, n)) :
    b = b.take h ++ b.drop h ∧ (b.take h).length = h ∧ (b.take h).head? = b.head? := by
  obtain ⟨h1, h2⟩ := L.header_pos b h n hh
  refine ⟨(List.take_append_drop _ _).symm, by rw [List.length_take]; omega, ?_⟩
  cases b with
  | nil => simp at h2; omega
  | cons x xs => obtain ⟨k, rfl⟩ : ∃ k, h = k + 1 := ⟨h - 1, by omega⟩; rfl

theorem certTlvBytes_first {der tbs : Bytes} (h : certTlvBytes L der = some tbs) : FirstElement L der tbs := by
  unfold certTlvBytes at h
  cases h1 : L.header der with
  | none => rw [h1] at h; cases h
  | some x =>
    obtain ⟨a, n⟩ := x
    rw [h1] at h
    simp only at h
    split at h
    · cases h
    rename_i ht
    cases h2 : L.header (der.drop a) with
    | none => rw [h2] at h; cases h
    | some y =>
      obtain ⟨b, m⟩ := y
      rw [h2] at h
      simp only at h
      split at h
      · cases h
      rename_i ht2
      cases h3 : derSlice (b + m) (der.drop a) with
      | none => rw [h3] at h; cases h
      | some z =>
        obtain ⟨v, r⟩ := z
        rw [h3] at h
        simp only [Option.map_some, Option.some.injEq] at h
        subst h
        obtain ⟨h4, h5⟩ := derSlice_some h3
        obtain ⟨h6, h7, -⟩ := header_split h1
        obtain ⟨hb1, -⟩ := L.header_pos _ _ _ h2
        refine ⟨der.take a, r, n, b, m, ?_, ?_, by simpa using ht, by rw [← h4]; exact h2, h5, ?_⟩
        · rw [List.append_assoc, ← h4]; exact h6
        · rw [h7]; exact h1
        · rw [h4] at ht2
          cases v with
          | nil => simp at h5; omega
          | cons x xs => simpa using ht2

theorem extractCommonName_from {subject : List (List Attr)} {cn : Option Bytes} {r : Option Bytes}
    (h : extractCommonName L subject cn = .ok r) (name : Bytes) (hr : r = some name) :
    cn = some name ∨ ∃ rdn ∈ subject, ∃ a ∈ rdn, a.oid = [2, 5, 4, 3] ∧ a.value = name := by
  induction subject generalizing cn with
  | nil => simp only [extractCommonName, Res.ok.injEq] at h; left; rw [h, hr]
  | cons elems rest ih =>
    cases elems with
    | nil => simp only [extractCommonName] at h; cases h
    | cons a as =>
      simp only [extractCommonName] at h
      split at h
      · rename_i ha
        split at h
        · rcases ih h with h1 | ⟨rdn, h1, h2⟩
          · split at h1
            · injection h1 with h1
              exact .inr ⟨a :: as, List.mem_cons_self, a, List.mem_cons_self, ha, h1⟩
            · cases h1
          · exact .inr ⟨rdn, List.mem_cons_of_mem _ h1, h2⟩
        · cases h
      · rcases ih h with h1 | ⟨rdn, h1, h2⟩
        · exact .inl h1
        · exact .inr ⟨rdn, List.mem_cons_of_mem _ h1, h2⟩

theorem sanLoop_from {fuel : Nat} {b : Bytes} {names r : List Bytes} (h : sanLoop L fuel b names = .ok r)
    (name : Bytes) (hr : name ∈ r) : name ∈ names ∨ HasDns L name b := by
  induction fuel generalizing b names with
  | zero => cases h
  | succ fuel ih =>
    cases b with
    | nil => simp only [sanLoop, Res.ok.injEq] at h; rw [h]; exact .inl hr
    | cons tag bs =>
      simp only [sanLoop] at h
      cases h1 : L.header (tag :: bs) with
      | none => rw [h1] at h; cases h
      | some x =>
        obtain ⟨hl, n⟩ := x
        rw [h1] at h
        simp only at h
        cases h2 : derSlice n ((tag :: bs).drop hl) with
        | none => rw [h2] at h; cases h
        | some y =>
          obtain ⟨v, rest⟩ := y
          rw [h2] at h
          simp only at h
          obtain ⟨h3, h4⟩ := derSlice_some h2
          obtain ⟨h5, h6, h7⟩ := header_split h1
          have e : tag :: bs = (tag :: bs).take hl ++ v ++ rest := by rw [List.append_assoc, ← h3]; exact h5
          have later : HasDns L name rest → HasDns L name (tag :: bs) := by
            intro hr'
            rw [e]
            refine .later _ v rest ?_ hr'
            rw [← e, h6, h4]; exact h1
          split at h
          · rename_i ht
            split at h
            · generalize hns : (if names.length < 3 then names ++ [v] else names) = ns at h
              have step : name ∈ ns → name ∈ names ∨ HasDns L name (tag :: bs) := by
                intro hm
                rw [← hns] at hm
                split at hm
                · rcases List.mem_append.1 hm with hm | hm
                  · exact .inl hm
                  · simp only [List.mem_singleton] at hm
                    subst hm
                    right
                    rw [e]
                    refine .here _ rest ?_ ?_
                    · rw [← e, h6, h4]; exact h1
                    · rw [h7, ht]; rfl
                · exact .inl hm
              split at h
              · simp only [Res.ok.injEq] at h
                exact step (h ▸ hr)
              · rcases ih h with h8 | h8
                · exact step h8
                · exact .inr (later h8)
            · cases h
          · rcases ih h with h8 | h8
            · exact .inl h8
            · exact .inr (later h8)

theorem extractSan_from {e : CertExt} {names r : List Bytes} (h : extractSan L e names = .ok r)
    (name : Bytes) (hr : name ∈ r) : name ∈ names ∨ ∃ hd content rest, e.tag = 4 ∧ e.value = hd ++ content ++ rest ∧
      L.header e.value = some (hd.length, content.length) ∧ hd.head? = some 0x30 ∧ HasDns L name content := by
  unfold extractSan at h
  split at h
  · cases h
  rename_i h4'
  cases h1 : L.header e.value with
  | none => rw [h1] at h; cases h
  | some x =>
    obtain ⟨hl, n⟩ := x
    rw [h1] at h
    simp only at h
    split at h
    · cases h
    rename_i ht
    cases h2 : derSlice n (e.value.drop hl) with
    | none => rw [h2] at h; cases h
    | some y =>
      obtain ⟨v, rest⟩ := y
      rw [h2] at h
      simp only at h
      obtain ⟨h3, h4⟩ := derSlice_some h2
      obtain ⟨h5, h6, h7⟩ := header_split h1
      rcases sanLoop_from h name hr with h8 | h8
      · exact .inl h8
      · refine .inr ⟨e.value.take hl, v, rest, Decidable.not_not.1 h4', ?_, ?_, ?_, h8⟩
        · rw [List.append_assoc, ← h3]; exact h5
        · rw [h6, h4]
        · rw [h7]; simpa using ht

theorem sanExtensions_from {xs : List CertExt} {names r : List Bytes} (h : sanExtensions L xs names = .ok r)
    (name : Bytes) (hr : name ∈ r) : name ∈ names ∨ ∃ e hd content rest, e ∈ xs ∧ e.id = [2, 5, 29, 17] ∧
      e.tag = 4 ∧ e.value = hd ++ content ++ rest ∧ L.header e.value = some (hd.length, content.length) ∧ hd.head? = some 0x30 ∧
      HasDns L name content := by
  induction xs generalizing names with
  | nil => simp only [sanExtensions, Res.ok.injEq] at h; rw [h]; exact .inl hr
  | cons e es ih =>
    rw [sanExtensions] at h
    split at h
    · rcases ih h with h1 | ⟨e', hd, c, t, h1, h2⟩
      · exact .inl h1
      · exact .inr ⟨e', hd, c, t, List.mem_cons_of_mem _ h1, h2⟩
    · rename_i hid
      cases hx : extractSan L e names with
      | err y => rw [hx] at h; cases h
      | panic => rw [hx] at h; cases h
      | ok ns =>
        rw [hx] at h
        simp only at h
        rcases ih h with h1 | ⟨e', hd, c, t, h1, h2⟩
        · rcases extractSan_from hx name h1 with h3 | ⟨hd, c, t, h3, h4⟩
          · exact .inl h3
          · exact .inr ⟨e, hd, c, t, List.mem_cons_self, by simpa [oidSubjectAltName] using hid, h3, h4⟩
        · exact .inr ⟨e', hd, c, t, List.mem_cons_of_mem _ h1, h2⟩

/-- Every name the verifier extracts is a DNS name of the certificate. -/
theorem extractSanDnsNames_from {c : DecodedCert} {r : List Bytes} (h : extractSanDnsNames L c = .ok r)
    (name : Bytes) (hr : name ∈ r) : DnsNameOf L c name := by
  unfold extractSanDnsNames at h
  cases hx : c.extensions with
  | none =>
    rw [hx] at h
    simp only [Res.ok.injEq] at h
    rw [← h] at hr; cases hr
  | some xs =>
    rw [hx] at h
    rcases sanExtensions_from h name hr with h1 | ⟨e, hd, ct, t, h1, h2, h3⟩
    · cases h1
    · exact ⟨xs, e, hd, ct, t, hx, h1, h2, h3⟩

/-- What a successful check of one certificate means. -/
theorem verifyCertEntry_ok {p q : CertEntry} {now : Option Nat} {names : CertNames}
    (h : verifyCertEntry L F p q now = .ok names) :
    ∃ issuer cert dc, p = .x509 issuer ∧ q = .x509 cert ∧ L.fromDer cert = some dc ∧ IssuedBy L issuer cert ∧
      ValidAt L now cert ∧ (∀ n, names.commonName = some n → CommonNameOf dc n) ∧
      (∀ n ∈ names.sans, DnsNameOf L dc n) ∧
      extractCommonName L dc.subject none = .ok names.commonName ∧ extractSanDnsNames L dc = .ok names.sans := by
  unfold verifyCertEntry at h
  cases p with
  | rawPublicKey _ => cases h
  | x509 issuer =>
    simp only at h
    cases h1 : L.fromDer issuer with
    | none => rw [h1] at h; cases h
    | some di =>
      rw [h1] at h
      simp only at h
      cases q with
      | rawPublicKey _ => cases h
      | x509 cert =>
        simp only at h
        cases h2 : L.fromDer cert with
        | none => rw [h2] at h; cases h
        | some dc =>
          rw [h2] at h
          simp only at h
          cases h3 : di.publicKey with
          | none => rw [h3] at h; cases h
          | some key =>
            rw [h3] at h
            simp only at h
            cases h4 : extractCommonName L dc.subject none with
            | err e => rw [h4] at h; cases h
            | panic => rw [h4] at h; cases h
            | ok cn =>
              rw [h4] at h
              simp only at h
              cases h5 : extractSanDnsNames L dc with
              | err e => rw [h5] at h; cases h
              | panic => rw [h5] at h; cases h
              | ok sans =>
                rw [h5] at h
                simp only at h
                cases htime : outOfPeriod now dc with
                | true => rw [htime, if_pos rfl] at h; cases h
                | false =>
                have hval : ValidAt L now cert := by
                  refine ⟨dc, h2, ?_⟩
                  rintro t rfl
                  simp only [outOfPeriod, Bool.or_eq_false_iff, decide_eq_false_iff_not] at htime
                  omega
                rw [htime, if_neg (by simp)] at h
                cases h6 : certTlvBytes L cert with
                | none => rw [h6] at h; cases h
                | some tbs =>
                  rw [h6] at h
                  simp only at h
                  cases h7 : certAlgo F dc.sigAlg with
                  | none => rw [h7] at h; cases h
                  | some algo =>
                    rw [h7] at h
                    simp only at h
                    cases h8 : checkCertSignature L algo key tbs dc.signature with
                    | err e => rw [h8] at h; cases h
                    | panic => rw [h8] at h; cases h
                    | ok b =>
                      rw [h8] at h
                      simp only at h
                      cases b with
                      | false => cases h
                      | true =>
                        simp only [if_true, Res.ok.injEq] at h
                        subst h
                        unfold checkCertSignature at h8
                        split at h8
                        · cases h8
                        cases hk : L.keyOk algo key with
                        | false => rw [hk] at h8; cases h8
                        | true =>
                          rw [hk] at h8
                          simp only [Bool.not_true, Bool.false_eq_true, if_false] at h8
                          cases hsig : dc.signature with
                          | none => rw [hsig] at h8; cases h8
                          | some sig =>
                            rw [hsig] at h8
                            simp only at h8
                            cases hs : L.sigOk algo sig with
                            | false => rw [hs] at h8; cases h8
                            | true =>
                              rw [hs] at h8
                              simp only [Bool.not_true, Bool.false_eq_true, if_false, Res.ok.injEq] at h8
                              refine ⟨issuer, cert, dc, rfl, rfl, h2,
                                ⟨di, dc, key, algo, tbs, sig, h1, h2, h3, certAlgo_mem h7, hsig,
                                  certTlvBytes_first h6, hk, hs, h8⟩, hval, ?_, ?_, h4, h5⟩
                              · intro n hn
                                rcases extractCommonName_from h4 n hn with h9 | h9
                                · cases h9
                                · exact h9
                              · exact fun n hn => extractSanDnsNames_from h5 n hn

/-- The loop over a list whose last element is `x`. -/
theorem verifyChain_snoc {now : Option Nat} (l : List CertEntry) (p x : CertEntry) (names r : CertNames) :
    verifyChain L F now p (l ++ [x]) names = .ok r ↔
      (∃ n, verifyChain L F now p l names = .ok n) ∧ verifyCertEntry L F (l.getLast?.getD p) x now = .ok r := by
  induction l generalizing p names with
  | nil =>
    simp only [List.nil_append, verifyChain, List.getLast?_nil, Option.getD_none]
    cases verifyCertEntry L F p x now <;> simp
  | cons y ys ih =>
    simp only [List.cons_append, verifyChain]
    have hl : ((y :: ys).getLast?.getD p) = ys.getLast?.getD y := by
      cases ys with
      | nil => rfl
      | cons z zs => simp [List.getLast?_cons]
    rw [hl]
    cases hy : verifyCertEntry L F p y now with
    | ok n => simp only; exact ih y n
    | err e => simp
    | panic => simp

/-- The chain, from the first certificate to the CA. -/
theorem verifyChain_ok {now : Option Nat} {ca : CertEntry} : ∀ {entries : List CertEntry} {names r : CertNames},
    verifyChain L F now ca entries.reverse names = .ok r →
    ∃ certs : List Bytes, entries = certs.map .x509 ∧
      (∀ (i : Nat) (cert : Bytes), certs[i]? = some cert → ValidAt L now cert ∧
        ∃ issuer, (entries ++ [ca])[i + 1]? = some (.x509 issuer) ∧ IssuedBy L issuer cert) ∧
      (entries = [] → r = names) ∧
      ∀ leaf rest, certs = leaf :: rest → ∃ dc, L.fromDer leaf = some dc ∧
        (∀ n, r.commonName = some n → CommonNameOf dc n) ∧ (∀ n ∈ r.sans, DnsNameOf L dc n) ∧
        extractCommonName L dc.subject none = .ok r.commonName ∧ extractSanDnsNames L dc = .ok r.sans := by
  intro entries
  induction entries with
  | nil =>
    intro names r h
    simp only [List.reverse_nil, verifyChain, Res.ok.injEq] at h
    exact ⟨[], rfl, by simp, fun _ => h.symm, by simp⟩
  | cons x xs ih =>
    intro names r h
    rw [List.reverse_cons, verifyChain_snoc] at h
    obtain ⟨⟨n, h1⟩, h2⟩ := h
    obtain ⟨certs, rfl, h3, -, -⟩ := ih h1
    obtain ⟨issuer, cert, dc, h4, rfl, h5, h6, h7, h8, h9, h10, h11⟩ := verifyCertEntry_ok h2
    refine ⟨cert :: certs, rfl, ?_, by simp, ?_⟩
    · intro i q hq
      cases i with
      | zero =>
        simp only [List.getElem?_cons_zero, Option.some.injEq] at hq
        subst hq
        refine ⟨h7, issuer, ?_, h6⟩
        rw [List.getLast?_reverse] at h4
        rw [List.cons_append, List.getElem?_cons_succ]
        cases certs with
        | nil => simpa using h4
        | cons c cs => simpa using h4
      | succ i =>
        rw [List.getElem?_cons_succ] at hq
        rw [List.cons_append, List.getElem?_cons_succ]
        exact h3 i q hq
    · intro leaf rest hl
      injection hl with hl _
      subst hl
      exact ⟨dc, h5, h8, h9, h10, h11⟩

theorem pkiVerifyCertificate_ok {now : Option Nat} {N : Nat} {tr : Bytes} {c : CertMsg} {v v' : PkiVerifier}
    (h : pkiVerifyCertificate L F now N tr c v = (.ok (), v')) :
    ∃ names, verifyChain L F now v.ca c.entries.reverse ⟨none, []⟩ = .ok names ∧ hostnameMatch names v.host = true ∧
      v' = { v with certificate := some (c.requestContext, c.rawEntries), transcript := some tr } := by
  unfold pkiVerifyCertificate at h
  rw [M.get_bind] at h
  cases h1 : verifyChain L F now v.ca c.entries.reverse ⟨none, []⟩ with
  | err e => rw [h1, M.lift_err_bind] at h; cases h
  | panic => rw [h1, M.lift_panic_bind] at h; cases h
  | ok names =>
    rw [h1, M.lift_ok_bind] at h
    cases h2 : hostnameMatch names v.host with
    | false => rw [h2] at h; cases h
    | true =>
      rw [h2, if_pos rfl] at h
      unfold certOwned at h
      by_cases h3 : c.requestContext.length ≤ 256
      · rw [if_pos h3] at h
        by_cases h4 : c.rawEntries.length ≤ N
        · rw [if_pos h4] at h
          exact ⟨names, rfl, h2, ((Prod.mk.injEq _ _ _ _).mp h).2.symm⟩
        · rw [if_neg h4] at h; cases h
      · rw [if_neg h3] at h; cases h

/-- What `tls_hostname_match` accepts. -/
theorem hostnameMatch_iff (names : CertNames) (host : Bytes) : hostnameMatch names (some host) = true ↔
    (∃ n ∈ names.sans, HostMatches n host) ∨ ∃ n, names.commonName = some n ∧ HostMatches n host := by
  simp only [hostnameMatch]
  by_cases h : names.sans.any (hostnameMatchImpl · host) = true
  · rw [if_pos h]
    simp only [List.any_eq_true, C49_hostname_match] at h
    simp only [true_iff]
    exact .inl h
  · rw [if_neg h]
    simp only [List.any_eq_true, C49_hostname_match] at h
    rw [or_iff_right h]
    cases names.commonName with
    | none => simp
    | some n => simp [C49_hostname_match]

/-- **C51** If the native verifier accepts a certificate list, every entry is an X.509 certificate within its validity
period (if there is a clock) whose signature verifies under the key of the next entry, the last one under the key of the
configured CA; and if a host name is expected, a DNS name or common name of the first certificate matches it. -/
theorem C51_chain (S : Suite) (now : Option Nat) (N : Nat) (tr : Bytes) (c : CertMsg) (v v' : PkiVerifier)
    (h : (pkiOps L S F now N).verifyCertificate tr c v = (.ok (), v')) :
    ∃ certs : List Bytes, c.entries = certs.map .x509 ∧
      (∀ (i : Nat) (cert : Bytes), certs[i]? = some cert → ValidAt L now cert ∧
        ∃ issuer, (c.entries ++ [v.ca])[i + 1]? = some (.x509 issuer) ∧ IssuedBy L issuer cert) ∧
      ∀ host, v.host = some host → ∃ leaf rest dc name, certs = leaf :: rest ∧ L.fromDer leaf = some dc ∧
        (DnsNameOf L dc name ∨ CommonNameOf dc name) ∧ HostMatches name host := by
  obtain ⟨names, h1, h2, -⟩ := pkiVerifyCertificate_ok h
  obtain ⟨certs, h3, h4, h5, h6⟩ := verifyChain_ok h1
  refine ⟨certs, h3, h4, fun host hh => ?_⟩
  rw [hh, hostnameMatch_iff] at h2
  cases certs with
  | nil =>
    rw [h5 h3] at h2
    simp at h2
  | cons leaf rest =>
    obtain ⟨dc, h7, h8, h9, -⟩ := h6 leaf rest rfl
    rcases h2 with ⟨n, h10, h11⟩ | ⟨n, h10, h11⟩
    · exact ⟨leaf, rest, dc, n, rfl, h7, .inl (h9 n h10), h11⟩
    · exact ⟨leaf, rest, dc, n, rfl, h7, .inr (h8 n h10), h11⟩

/-- Completeness of one step: a certificate with a valid signature by an enabled algorithm, in its period, whose names can
be decoded, is accepted. -/
theorem verifyCertEntry_complete {issuer cert tbs key sig : Bytes} {di dc : DecodedCert} {algo : SigAlgo}
    {now : Option Nat} {names : CertNames} (h1 : L.fromDer issuer = some di) (h2 : L.fromDer cert = some dc)
    (h3 : di.publicKey = some key) (h4 : certAlgo F dc.sigAlg = some algo) (h5 : dc.signature = some sig)
    (h6 : FirstElement L cert tbs) (h7 : ValidSignature L algo key tbs sig) (h8 : algo = .ed25519 → key.length = 32)
    (h9 : ValidAt L now cert) (h10 : extractCommonName L dc.subject none = .ok names.commonName)
    (h11 : extractSanDnsNames L dc = .ok names.sans) : verifyCertEntry L F (.x509 issuer) (.x509 cert) now = .ok names := by
  have ht : outOfPeriod now dc = false := by
    obtain ⟨dc', e1, e2⟩ := h9
    rw [h2] at e1
    injection e1 with e1
    subst e1
    cases now with
    | none => rfl
    | some t =>
      have := e2 t rfl
      simp only [outOfPeriod, Bool.or_eq_false_iff, decide_eq_false_iff_not]
      omega
  have hb : certTlvBytes L cert = some tbs := by
    obtain ⟨outer, rest, n, h, m, e1, e2, e3, e4, e5, e6⟩ := h6
    have hd : cert.drop outer.length = tbs ++ rest := by rw [e1, List.append_assoc, List.drop_left]
    have hh : (tbs ++ rest).head? = some 0x30 := by
      cases tbs with
      | nil => cases e6
      | cons x xs => exact e6
    unfold certTlvBytes derSlice
    simp only [e2, e3, hd, e4, hh, ne_eq, not_true, if_false, ← e5, List.length_append, Nat.le_add_right, if_true,
      Option.map_some, List.take_left]
  obtain ⟨k1, k2, k3⟩ := h7
  have hc : checkCertSignature L algo key tbs dc.signature = .ok true := by
    unfold checkCertSignature
    rw [if_neg (by rintro ⟨a, b⟩; exact b (h8 a)), k1, h5]
    simp [k2, k3]
  unfold verifyCertEntry
  simp only [h1, h2, h3, h10, h11, ht, Bool.false_eq_true, if_false, hb, h4, hc, if_true]

/-- The entries of a received Certificate are those its raw bytes parse to. -/
theorem parsed_entries {p p' : PB} {c : CertMsg} (h : CertMsg.parse p = (.ok c, p')) :
    CertEntry.parseVector 16 ⟨c.rawEntries, 0⟩ = .ok c.entries := by
  unfold CertMsg.parse at h
  obtain ⟨n, s1, h1, h⟩ := M.bind_inv h
  obtain ⟨ctx, s2, h2, h⟩ := M.bind_inv h
  obtain ⟨m, s3, h3, h⟩ := M.bind_inv h
  obtain ⟨raw, s4, h4, h⟩ := M.bind_inv h
  obtain ⟨es, s5, h5, h⟩ := M.bind_inv h
  have hraw : raw = ⟨raw.buffer, 0⟩ := by
    simp only [P.orErr, M.mapErr, PB.slice] at h4
    split at h4
    · simp only [Res.mapErr, Prod.mk.injEq, Res.ok.injEq] at h4
      rw [← h4.1]; rfl
    · simp [Res.mapErr] at h4
  simp only [M.lift_apply, Prod.mk.injEq] at h5
  simp only [M.pure_apply, Prod.mk.injEq, Res.ok.injEq] at h
  rw [← h.1]
  simp only
  rw [← hraw]
  exact h5.1

theorem serverSigned_ok {S : Suite} {cap : Nat} {tr msg : Bytes} (h : serverSigned S cap tr = .ok msg) :
    msg = serverSignedContent S tr := by
  unfold serverSigned at h
  simp only at h
  split at h
  · simp only [Res.ok.injEq] at h
    rw [← h]
    simp [serverSignedContent]
  · cases h

/-- What a successful check of the signature means. -/
theorem verifyPkiSignature_ok {msg : Bytes} {entries : List CertEntry} {cv : CertVerify}
    (h : verifyPkiSignature L F msg entries cv = .ok ()) :
    ∃ leaf rest dc key algo, entries = .x509 leaf :: rest ∧ L.fromDer leaf = some dc ∧ dc.publicKey = some key ∧
      (cv.scheme, algo) ∈ schemeAlgorithms ∧ ValidSignature L algo key msg cv.signature := by
  unfold verifyPkiSignature at h
  cases entries with
  | nil => cases h
  | cons e rest =>
    cases e with
    | rawPublicKey _ => cases h
    | x509 leaf =>
      simp only at h
      cases h1 : L.fromDer leaf with
      | none => rw [h1] at h; cases h
      | some dc =>
        rw [h1] at h
        simp only at h
        cases h2 : dc.publicKey with
        | none => rw [h2] at h; cases h
        | some key =>
          rw [h2] at h
          simp only at h
          cases h3 : schemeAlgo F cv.scheme with
          | none => rw [h3] at h; cases h
          | some algo =>
            rw [h3] at h
            simp only at h
            split at h
            · cases h
            cases h4 : L.keyOk algo key with
            | false => rw [h4] at h; simp only [Bool.not_false, if_true] at h; split at h <;> cases h
            | true =>
              cases h5 : L.sigOk algo cv.signature with
              | false => rw [h4, h5] at h; simp at h
              | true =>
                cases h6 : L.verify algo key msg cv.signature with
                | false => rw [h4, h5, h6] at h; simp at h
                | true => exact ⟨leaf, rest, dc, key, algo, rfl, h1, h2, schemeAlgo_mem h3, h4, h5, h6⟩

/-- What a successful `verify_signature` of the native verifier means for the state it was called in. -/
theorem pkiVerifySignature_ok {S : Suite} {cv : CertVerify} {v v' : PkiVerifier}
    (h : pkiVerifySignature L S F cv v = (.ok (), v')) :
    ∃ tr ctx raw entries, v.transcript = some tr ∧ v.certificate = some (ctx, raw) ∧
      CertEntry.parseVector 16 ⟨raw, 0⟩ = .ok entries ∧
      verifyPkiSignature L F (serverSignedContent S tr) entries cv = .ok () ∧ v' = { v with transcript := none } := by
  unfold pkiVerifySignature at h
  rw [M.get_bind] at h
  cases h1 : v.transcript with
  | none => rw [h1] at h; cases h
  | some tr =>
    rw [h1] at h
    simp only [M.modify_bind] at h
    cases h2 : serverSigned S 146 tr with
    | err e => rw [h2, M.lift_err_bind] at h; cases h
    | panic => rw [h2, M.lift_panic_bind] at h; cases h
    | ok msg =>
      rw [h2, M.lift_ok_bind] at h
      cases h3 : v.certificate with
      | none => rw [h3] at h; cases h
      | some x =>
        obtain ⟨ctx, raw⟩ := x
        rw [h3] at h
        simp only at h
        cases h4 : CertEntry.parseVector 16 ⟨raw, 0⟩ with
        | err e => rw [h4, M.lift_err_bind] at h; cases h
        | panic => rw [h4, M.lift_panic_bind] at h; cases h
        | ok entries =>
          rw [h4, M.lift_ok_bind, M.lift_apply, Prod.mk.injEq] at h
          refine ⟨tr, ctx, raw, entries, rfl, rfl, h4, ?_, ?_⟩
          · rw [← serverSigned_ok h2]; exact h.1
          · rw [← h.2]

/-- **C52** If `verify_signature` of the native verifier succeeds after `verify_certificate` accepted a received
Certificate, then the signature over 64 spaces, the server context string, a zero byte and the hash of the transcript
shown with the Certificate verifies under the key of the first certificate. -/
theorem C52_signature (S : Suite) (now : Option Nat) (N : Nat) (tr : Bytes) (c : CertMsg) (cv : CertVerify)
    (p p' : PB) (v v' v'' : PkiVerifier) (hp : CertMsg.parse p = (.ok c, p'))
    (h1 : (pkiOps L S F now N).verifyCertificate tr c v = (.ok (), v'))
    (h2 : (pkiOps L S F now N).verifySignature cv v' = (.ok (), v'')) :
    ∃ leaf rest dc key algo, c.entries = .x509 leaf :: rest ∧ L.fromDer leaf = some dc ∧ dc.publicKey = some key ∧
      (cv.scheme, algo) ∈ schemeAlgorithms ∧ ValidSignature L algo key (serverSignedContent S tr) cv.signature := by
  obtain ⟨_, -, -, rfl⟩ := pkiVerifyCertificate_ok h1
  obtain ⟨tr', ctx, raw, entries, h3, h4, h5, h6, -⟩ := pkiVerifySignature_ok h2
  simp only [Option.some.injEq, Prod.mk.injEq] at h3 h4
  obtain ⟨rfl, rfl⟩ := h4
  subst h3
  rw [parsed_entries hp] at h5
  injection h5 with h5
  subst h5
  exact verifyPkiSignature_ok h6

/-! ## A toy library for examples -/

/-- A toy certificate: SEQUENCE of the to-be-signed SEQUENCE (key byte, first and last second of its period, common name
with its length, subjectAltName extension or nothing) and the signature. -/
def toyDecode : Bytes → Option DecodedCert
  | 0x30 :: _ :: 0x30 :: m :: rest =>
    match rest.take m.toNat with
    | key :: nb :: na :: k :: t =>
      some { issuer := [], subject := if k = 0 then [] else [[⟨[2, 5, 4, 3], t.take k.toNat⟩]],
             notBefore := nb.toNat, notAfter := na.toNat, publicKey := some [key],
             extensions := if t.drop k.toNat = [] then none else some [⟨[2, 5, 29, 17], none, 4, t.drop k.toNat⟩],
             sigAlg := ⟨[1, 2, 840, 10045, 4, 3, 2], none⟩, signature := some (rest.drop m.toNat) }
    | _ => none
  | _ => none

/-- Tag byte and length byte. -/
def toyHeader : Bytes → Option (Nat × Nat)
  | _ :: n :: _ => some (2, n.toNat)
  | _ => none

/-- The toy library: a signature is a checksum of key and message. -/
def toyPki : PkiLib where
  fromDer := toyDecode
  header := toyHeader
  header_pos := fun b h n hb => by
    cases b with
    | nil => cases hb
    | cons x xs =>
      cases xs with
      | nil => cases hb
      | cons y ys =>
        simp only [toyHeader, Option.some.injEq, Prod.mk.injEq] at hb
        obtain ⟨rfl, -⟩ := hb
        simp
  utf8 := fun b => b.all (· < 128)
  keyOk := fun a k => k.length = if a = .ed25519 then 32 else 1
  sigOk := fun _ s => s.length = 4
  verify := fun _ k m s => s = mix 4 (k ++ m)

/-- A toy certificate with the given key, period, common name and DNS names, signed with the key `signer`. -/
def toyCert (signer key nb na : UInt8) (cn : String) (sans : List String) : Bytes :=
  let san := sans.flatMap fun n => 0x82 :: UInt8.ofNat n.length :: ascii n
  let ext := if sans = [] then [] else 0x30 :: UInt8.ofNat san.length :: san
  let content := [key, nb, na, UInt8.ofNat cn.length] ++ ascii cn ++ ext
  let tbs := 0x30 :: UInt8.ofNat content.length :: content
  let sig := mix 4 ([signer] ++ tbs)
  0x30 :: UInt8.ofNat (tbs.length + sig.length) :: tbs ++ sig

/-- All algorithms compiled in. -/
def allFeatures : Features := ⟨true, true, true⟩

/-- A Certificate message with these certificates. -/
def toyMsg (cs : List Bytes) : CertMsg :=
  ⟨cs.flatMap fun c => be24 c.length ++ c ++ [0, 0], [], cs.map .x509⟩

def toyCa : Bytes := toyCert 1 1 0 100 "ca" []
def toyInter : Bytes := toyCert 1 2 0 100 "inter" []
def toyLeaf : Bytes := toyCert 2 3 10 50 "cn.example.org" ["www.example.com", "*.a.example.com"]

/-- The verifier with the toy CA, expecting a host. -/
def toyVerifier (host : Option String) : PkiVerifier := ⟨.x509 toyCa, host.map ascii, none, none⟩

/-- A chain of two is accepted for each of its three names, at the right time and in the right order only. -/
example : ((pkiOps toyPki toySuite allFeatures (some 50) 1000).verifyCertificate [] (toyMsg [toyLeaf, toyInter])
    (toyVerifier "x.a.example.com")).1 = .ok () := by decide +kernel
example : ((pkiOps toyPki toySuite allFeatures (some 51) 1000).verifyCertificate [] (toyMsg [toyLeaf, toyInter])
    (toyVerifier "x.a.example.com")).1 = .err .invalidCertificate := by decide +kernel
example : ((pkiOps toyPki toySuite allFeatures none 1000).verifyCertificate [] (toyMsg [toyLeaf])
    (toyVerifier "x.a.example.com")).1 = .err .invalidCertificate := by decide +kernel

/-! ## C50 -/

/-- **C50, refuted** A leaf with a DNS name that does not match the host is accepted because its common name matches. -/
theorem C50_refuted : ∃ (L : PkiLib) (c : CertMsg) (leaf : Bytes) (dc : DecodedCert) (v : PkiVerifier) (host : Bytes),
    c.entries = [.x509 leaf] ∧ L.fromDer leaf = some dc ∧ v.host = some host ∧ DnsNameOf L dc (ascii "www.example.com") ∧
    extractSanDnsNames L dc = .ok [ascii "www.example.com"] ∧ ¬ HostMatches (ascii "www.example.com") host ∧
    ((pkiOps L toySuite allFeatures (some 20) 1000).verifyCertificate [] c v).1 = .ok () := by
  refine ⟨toyPki, toyMsg [toyCert 1 3 10 50 "evil.org" ["www.example.com"]],
    toyCert 1 3 10 50 "evil.org" ["www.example.com"], _, toyVerifier "evil.org", ascii "evil.org", rfl, rfl, rfl, ?_,
    by decide +kernel, ?_, by decide +kernel⟩
  · exact extractSanDnsNames_from (r := [ascii "www.example.com"]) (by decide +kernel) _ (by simp)
  · rw [← C49_hostname_match]; decide +kernel

/-- **C50, the part that holds** If the leaf has no common name, acceptance for a host means that one of its DNS names
matches.  Missing: the same for a leaf that has DNS names and a common name. -/
theorem C50_no_common_name_partial (S : Suite) (now : Option Nat) (N : Nat) (tr : Bytes) (c : CertMsg)
    (v v' : PkiVerifier) (h : (pkiOps L S F now N).verifyCertificate tr c v = (.ok (), v')) (leaf : Bytes)
    (rest : List CertEntry) (dc : DecodedCert) (host : Bytes) (hc : c.entries = .x509 leaf :: rest)
    (hd : L.fromDer leaf = some dc) (hn : ∀ name, ¬ CommonNameOf dc name) (hh : v.host = some host) :
    ∃ name, DnsNameOf L dc name ∧ HostMatches name host := by
  obtain ⟨certs, h1, -, h2⟩ := C51_chain S now N tr c v v' h
  obtain ⟨leaf', rest', dc', name, rfl, h3, h4, h5⟩ := h2 host hh
  rw [hc] at h1
  simp only [List.map_cons, List.cons.injEq, CertEntry.x509.injEq] at h1
  obtain ⟨rfl, -⟩ := h1
  rw [hd] at h3
  injection h3 with h3
  subst h3
  rcases h4 with h4 | h4
  · exact ⟨name, h4, h5⟩
  · exact absurd h4 (hn name)

example : ((pkiOps toyPki toySuite allFeatures (some 20) 1000).verifyCertificate []
    (toyMsg [toyCert 1 3 10 50 "" ["www.example.com"]]) (toyVerifier "WWW.example.com")).1 = .ok () := by decide +kernel

/-! ## C53 -/

/-- **C53, refuted** Both verifiers panic when `verify_signature` is called before a certificate was verified. -/
theorem C53_refuted_panic (S : Suite) (F : Features) (L : PkiLib) (W : WebLib) (alloc : Bool) (now : Option Nat) (N : Nat)
    (ca : CertEntry) (cv : CertVerify) :
    ((pkiOps L S F now N).verifySignature cv (PkiVerifier.new ca)).1 = .panic ∧
    ((webOps W S alloc now N).verifySignature cv (PkiVerifier.new ca)).1 = .panic := ⟨rfl, rfl⟩

theorem webVerifyCertificate_ok {W : WebLib} {now : Option Nat} {N : Nat} {tr : Bytes} {c : CertMsg} {v v' : PkiVerifier}
    (h : webVerifyCertificate W now N tr c v = (.ok (), v')) :
    webVerifyChain W v.host v.ca c.entries now = .ok () ∧
      v' = { v with certificate := some (c.requestContext, c.rawEntries), transcript := some tr } := by
  unfold webVerifyCertificate at h
  rw [M.get_bind] at h
  cases h1 : webVerifyChain W v.host v.ca c.entries now with
  | err e => rw [h1, M.lift_err_bind] at h; cases h
  | panic => rw [h1, M.lift_panic_bind] at h; cases h
  | ok names =>
    rw [h1, M.lift_ok_bind] at h
    unfold certOwned at h
    by_cases h3 : c.requestContext.length ≤ 256
    · rw [if_pos h3] at h
      by_cases h4 : c.rawEntries.length ≤ N
      · rw [if_pos h4] at h
        exact ⟨rfl, ((Prod.mk.injEq _ _ _ _).mp h).2.symm⟩
      · rw [if_neg h4] at h; cases h
    · rw [if_neg h3] at h; cases h

theorem serverSigned_eq (S : Suite) (hS : S.Lawful) (cap : Nat) (tr : Bytes) : serverSigned S cap tr =
    if 98 + S.hashLen ≤ cap then .ok (serverSignedContent S tr) else .err .encodeError := by
  have hl : (List.replicate 64 (0x20 : UInt8) ++ (ascii "TLS 1.3, server CertificateVerify" ++ [0]) ++
      S.hash tr).length = 98 + S.hashLen := by
    rw [List.length_append, hS.hash_length, List.length_append, List.length_replicate]
    have : (ascii "TLS 1.3, server CertificateVerify" ++ [0]).length = 34 := by decide
    omega
  unfold serverSigned
  simp only [hl]
  split
  · simp [serverSignedContent]
  · rfl

/-- **C53, refuted** With a hash of 48 bytes (SHA-384) the webpki verifier cannot build the signed content: whatever
signature follows an accepted Certificate, the answer is EncodeError. -/
theorem C53_refuted_sha384 (S : Suite) (hS : S.Lawful) (h48 : S.hashLen = 48) (W : WebLib) (alloc : Bool)
    (now : Option Nat) (N : Nat) (tr : Bytes) (c : CertMsg) (cv : CertVerify) (v v' : PkiVerifier)
    (h : (webOps W S alloc now N).verifyCertificate tr c v = (.ok (), v')) :
    ((webOps W S alloc now N).verifySignature cv v').1 = .err .encodeError := by
  obtain ⟨-, rfl⟩ := webVerifyCertificate_ok h
  simp only [webOps, webVerifySignature, M.get_bind, M.modify_bind]
  rw [serverSigned_eq S hS, h48, if_neg (by omega), M.lift_err_bind]

/-- **C53, the part that holds (native)** After an accepted Certificate, with SHA-256 or SHA-384, the signed content is
built and the signature is looked at: the answer is Ok, InvalidSignature, InvalidSignatureScheme or DecodeError, or the key
of the leaf is not one the scheme can use (then Ed25519 and RSA-PSS-SHA256 panic). -/
theorem C53_native_partial (S : Suite) (hS : S.Lawful) (now : Option Nat) (N : Nat) (tr : Bytes) (c : CertMsg)
    (cv : CertVerify) (p p' : PB) (v v' : PkiVerifier) (hp : CertMsg.parse p = (.ok c, p'))
    (h : (pkiOps L S F now N).verifyCertificate tr c v = (.ok (), v')) :
    ((pkiOps L S F now N).verifySignature cv v').1 ∈
      [.ok (), .err .invalidSignature, .err .invalidSignatureScheme, .err .decodeError] ∨
    (((pkiOps L S F now N).verifySignature cv v').1 = .panic ∧
      ∃ leaf rest dc key, c.entries = .x509 leaf :: rest ∧ L.fromDer leaf = some dc ∧ dc.publicKey = some key ∧
        ((cv.scheme = .ed25519 ∧ key.length ≠ 32) ∨
          (cv.scheme = .rsaPssRsaeSha256 ∧ L.keyOk .rsaPssSha256 key = false))) := by
  obtain ⟨_, -, -, rfl⟩ := pkiVerifyCertificate_ok h
  have hle := hS.hashLen_le
  simp only [pkiOps, pkiVerifySignature, M.get_bind, M.modify_bind]
  rw [serverSigned_eq S hS, if_pos (by omega), M.lift_ok_bind, parsed_entries hp, M.lift_ok_bind, M.lift_apply]
  unfold verifyPkiSignature
  cases c.entries with
  | nil => simp
  | cons e rest =>
    cases e with
    | rawPublicKey _ => simp
    | x509 leaf =>
      simp only
      cases h1 : L.fromDer leaf with
      | none => simp
      | some dc =>
        simp only
        cases h2 : dc.publicKey with
        | none => simp
        | some key =>
          simp only
          cases h3 : schemeAlgo F cv.scheme with
          | none => simp
          | some algo =>
            have hm := schemeAlgo_mem h3
            simp only
            split
            · rename_i h4
              refine .inr ⟨rfl, leaf, rest, dc, key, rfl, h1, h2, .inl ⟨?_, h4.2⟩⟩
              rw [h4.1] at hm
              simpa [schemeAlgorithms] using hm
            cases h5 : L.keyOk algo key with
            | false =>
              simp only [Bool.not_false, if_true]
              split
              · rename_i h6
                subst h6
                refine .inr ⟨rfl, leaf, rest, dc, key, rfl, h1, h2, .inr ⟨?_, h5⟩⟩
                simpa [schemeAlgorithms] using hm
              · simp
            | true =>
              cases L.sigOk algo cv.signature <;> cases L.verify algo key (serverSignedContent S tr) cv.signature <;> simp

/-- **C53, the part that holds (webpki)** After an accepted Certificate, with a hash of at most 32 bytes (SHA-256), there
is no panic and the signature is looked at. -/
theorem C53_webpki_partial (S : Suite) (hS : S.Lawful) (h32 : S.hashLen ≤ 32) (W : WebLib) (alloc : Bool)
    (now : Option Nat) (N : Nat) (tr : Bytes) (c : CertMsg) (cv : CertVerify) (p p' : PB) (v v' : PkiVerifier)
    (hp : CertMsg.parse p = (.ok c, p')) (h : (webOps W S alloc now N).verifyCertificate tr c v = (.ok (), v')) :
    ((webOps W S alloc now N).verifySignature cv v').1 ∈
      [.ok (), .err .invalidSignature, .err .invalidSignatureScheme, .err .decodeError] := by
  obtain ⟨-, rfl⟩ := webVerifyCertificate_ok h
  simp only [webOps, webVerifySignature, M.get_bind, M.modify_bind]
  rw [serverSigned_eq S hS, if_pos (by omega), M.lift_ok_bind, parsed_entries hp, M.lift_ok_bind, M.lift_apply]
  unfold webCheckSignature
  cases c.entries with
  | nil => simp
  | cons e rest =>
    cases e with
    | rawPublicKey _ => simp
    | x509 leaf =>
      simp only
      cases W.leafOk leaf
      · simp
      · cases webAlgo alloc cv.scheme with
        | none => simp
        | some algo => cases hv : W.verify algo leaf (serverSignedContent S tr) cv.signature <;> simp [hv]

/-! ### Examples -/

/-- The toy suite with a hash of 48 bytes. -/
def toySuite48 : Suite :=
  { toySuite with hashLen := 48, hash := mix 48, extract := fun s i => mix 48 (s ++ i), hmac := fun k m => mix 48 (k ++ m) }

theorem toySuite48_lawful : toySuite48.Lawful where
  ivLen_eq := rfl
  hashLen_pos := by decide
  hashLen_le := by decide
  keyLen_le := by decide
  hash_length := fun m => mix_length 48 m
  hmac_length := fun k m => mix_length 48 _
  extract_length := fun s i => mix_length 48 _
  expand_length := toySuite_lawful.expand_length
  sealCt_length := toySuite_lawful.sealCt_length
  sealTag_length := toySuite_lawful.sealTag_length
  open_length := toySuite_lawful.open_length
  open_seal := toySuite_lawful.open_seal
  pubKey_length := toySuite_lawful.pubKey_length

/-- A toy webpki: certificates as in the toy library above. -/
def toyWeb : WebLib where
  anchorOk := fun b => (toyDecode b).isSome
  leafOk := fun b => (toyDecode b).isSome
  chainOk := fun ca leaf now => verifyCertEntry toyPki allFeatures (.x509 ca) (.x509 leaf) (some now) |>.isOk
  nameOk := fun _ => true
  validFor := fun leaf host => match toyDecode leaf with
    | some d => match extractSanDnsNames toyPki d with
      | .ok names => names.any (hostnameMatchImpl · host)
      | _ => false
    | none => false
  verify := fun _ leaf m s => match toyDecode leaf with
    | some d => s = mix 4 (d.publicKey.getD [] ++ m)
    | none => false

/-- Run `verify_certificate` and then `verify_signature`. -/
def certThenSig (ops : VerifierOps PkiVerifier) (tr : Bytes) (c : CertMsg) (cv : CertVerify) (v : PkiVerifier) :
    Res TlsError Unit × Res TlsError Unit :=
  ((ops.verifyCertificate tr c v).1, (ops.verifySignature cv (ops.verifyCertificate tr c v).2).1)

/-- The toy leaf's signature over a transcript. -/
def toySign (S : Suite) (tr : Bytes) : CertVerify := ⟨.ecdsaSecp256r1Sha256, mix 4 ([3] ++ serverSignedContent S tr)⟩

-- the message the examples use is received as it stands
example : (CertMsg.parse ⟨0 :: be24 (toyMsg [toyLeaf, toyInter]).rawEntries.length ++
    (toyMsg [toyLeaf, toyInter]).rawEntries, 0⟩).1 = .ok (toyMsg [toyLeaf, toyInter]) := by decide +kernel
-- native verifier: both hash sizes
example : certThenSig (pkiOps toyPki toySuite allFeatures (some 20) 1000) [1, 2] (toyMsg [toyLeaf, toyInter])
    (toySign toySuite [1, 2]) (toyVerifier "www.example.com") = (.ok (), .ok ()) := by decide +kernel
example : certThenSig (pkiOps toyPki toySuite48 allFeatures (some 20) 1000) [1, 2] (toyMsg [toyLeaf, toyInter])
    (toySign toySuite48 [1, 2]) (toyVerifier "www.example.com") = (.ok (), .ok ()) := by decide +kernel
-- the transcript shown with the certificate is the one signed
example : certThenSig (pkiOps toyPki toySuite allFeatures (some 20) 1000) [1, 3] (toyMsg [toyLeaf, toyInter])
    (toySign toySuite [1, 2]) (toyVerifier "www.example.com") = (.ok (), .err .invalidSignature) := by decide +kernel
-- an Ed25519 signature with a key of another length
example : certThenSig (pkiOps toyPki toySuite allFeatures (some 20) 1000) [1, 2] (toyMsg [toyLeaf, toyInter])
    ⟨.ed25519, []⟩ (toyVerifier "www.example.com") = (.ok (), .panic) := by decide +kernel
-- webpki: SHA-256 works, SHA-384 does not
example : certThenSig (webOps toyWeb toySuite false (some 20) 1000) [1, 2] (toyMsg [toyCert 1 3 10 50 "a.b" []])
    (toySign toySuite [1, 2]) (toyVerifier none) = (.ok (), .ok ()) := by decide +kernel
example : certThenSig (webOps toyWeb toySuite48 false (some 20) 1000) [1, 2] (toyMsg [toyCert 1 3 10 50 "a.b" []])
    (toySign toySuite48 [1, 2]) (toyVerifier none) = (.ok (), .err .encodeError) := by decide +kernel

/-! ## C57: the webpki verifier -/

theorem webAlgo_mem {alloc : Bool} {x : SignatureScheme} {algo : WebAlgo} (h : webAlgo alloc x = some algo) :
    (x, algo) ∈ webpkiAlgorithms := by
  cases x <;> cases alloc <;> simp [webAlgo] at h <;> subst h <;> decide

theorem webVerifyChain_ok {W : WebLib} {host : Option Bytes} {ca : CertEntry} {entries : List CertEntry}
    {now : Option Nat} (h : webVerifyChain W host ca entries now = .ok ()) :
    ∃ anchor leaf rest, ca = .x509 anchor ∧ entries = .x509 leaf :: rest ∧ W.leafOk leaf = true ∧
      W.chainOk anchor leaf (now.getD 0) = true ∧
      ∀ name, host = some name → W.nameOk name = true ∧ W.validFor leaf name = true := by
  unfold webVerifyChain at h
  cases ca with
  | rawPublicKey _ => cases h
  | x509 anchor =>
    simp only at h
    cases ha : W.anchorOk anchor with
    | false => rw [ha] at h; cases h
    | true =>
      rw [ha] at h
      simp only [Bool.not_true, Bool.false_eq_true, if_false] at h
      cases entries with
      | nil => cases h
      | cons e rest =>
        cases e with
        | rawPublicKey _ => cases h
        | x509 leaf =>
          simp only at h
          cases hl : W.leafOk leaf with
          | false => rw [hl] at h; cases h
          | true =>
            rw [hl] at h
            simp only [Bool.not_true, Bool.false_eq_true, if_false] at h
            cases hu : W.chainOk anchor leaf (now.getD 0) with
            | false => rw [hu] at h; simp at h
            | true =>
              refine ⟨anchor, leaf, rest, rfl, rfl, hl, hu, ?_⟩
              intro name hh
              rw [hu, hh] at h
              simp only [Bool.not_true, Bool.false_eq_true, if_false, Option.isSome_some, Bool.and_true] at h
              split at h
              · cases h
              · rename_i hx
                simpa using hx

theorem webVerifySignature_ok {W : WebLib} {S : Suite} {alloc : Bool} {cv : CertVerify} {v v' : PkiVerifier}
    (h : webVerifySignature W S alloc cv v = (.ok (), v')) :
    ∃ tr ctx raw entries leaf rest algo, v.transcript = some tr ∧ v.certificate = some (ctx, raw) ∧
      CertEntry.parseVector 16 ⟨raw, 0⟩ = .ok entries ∧ entries = .x509 leaf :: rest ∧
      (cv.scheme, algo) ∈ webpkiAlgorithms ∧ W.verify algo leaf (serverSignedContent S tr) cv.signature = true ∧
      v' = { v with transcript := none } := by
  unfold webVerifySignature at h
  rw [M.get_bind] at h
  cases h1 : v.transcript with
  | none => rw [h1] at h; cases h
  | some tr =>
    rw [h1] at h
    simp only [M.modify_bind] at h
    cases h2 : serverSigned S 130 tr with
    | err e => rw [h2, M.lift_err_bind] at h; cases h
    | panic => rw [h2, M.lift_panic_bind] at h; cases h
    | ok msg =>
      rw [h2, M.lift_ok_bind] at h
      cases h3 : v.certificate with
      | none => rw [h3] at h; cases h
      | some x =>
        obtain ⟨ctx, raw⟩ := x
        rw [h3] at h
        simp only at h
        cases h4 : CertEntry.parseVector 16 ⟨raw, 0⟩ with
        | err e => rw [h4, M.lift_err_bind] at h; cases h
        | panic => rw [h4, M.lift_panic_bind] at h; cases h
        | ok entries =>
          rw [h4, M.lift_ok_bind, M.lift_apply, Prod.mk.injEq] at h
          obtain ⟨h, hv⟩ := h
          have hm := serverSigned_ok h2
          subst hm
          unfold webCheckSignature at h
          cases entries with
          | nil => cases h
          | cons e rest =>
            cases e with
            | rawPublicKey _ => cases h
            | x509 leaf =>
              simp only at h
              cases hl : W.leafOk leaf with
              | false => rw [hl] at h; cases h
              | true =>
                rw [hl] at h
                simp only [Bool.not_true, Bool.false_eq_true, if_false] at h
                cases hw : webAlgo alloc cv.scheme with
                | none => rw [hw] at h; cases h
                | some algo =>
                  rw [hw] at h
                  simp only at h
                  split at h
                  · rename_i hver
                    exact ⟨tr, ctx, raw, _, leaf, rest, algo, rfl, rfl, h4, rfl, webAlgo_mem hw, hver, hv.symm⟩
                  · cases h

/-- **C57** If the webpki verifier accepts a certificate list, its first entry is a certificate that webpki accepts for
server authentication under the configured CA at the current time (the epoch without a clock), and, if a host is expected,
for that host.  If it then accepts a signature, webpki verified it over the content of RFC 8446 with that certificate. -/
theorem C57_webpki (S : Suite) (W : WebLib) (alloc : Bool) (now : Option Nat) (N : Nat) (tr : Bytes) (c : CertMsg)
    (p p' : PB) (v v' : PkiVerifier) (hp : CertMsg.parse p = (.ok c, p'))
    (h : (webOps W S alloc now N).verifyCertificate tr c v = (.ok (), v')) :
    ∃ ca leaf rest, v.ca = .x509 ca ∧ c.entries = .x509 leaf :: rest ∧ W.chainOk ca leaf (now.getD 0) = true ∧
      (∀ host, v.host = some host → W.nameOk host = true ∧ W.validFor leaf host = true) ∧
      ∀ cv v'', (webOps W S alloc now N).verifySignature cv v' = (.ok (), v'') →
        ∃ algo, (cv.scheme, algo) ∈ webpkiAlgorithms ∧
          W.verify algo leaf (serverSignedContent S tr) cv.signature = true := by
  obtain ⟨h1, rfl⟩ := webVerifyCertificate_ok h
  obtain ⟨ca, leaf, rest, h2, h3, -, h4, h5⟩ := webVerifyChain_ok h1
  refine ⟨ca, leaf, rest, h2, h3, h4, h5, fun cv v'' hs => ?_⟩
  obtain ⟨tr', ctx, raw, entries, leaf', rest', algo, k1, k2, k3, k4, k5, k6, -⟩ := webVerifySignature_ok hs
  simp only [Option.some.injEq, Prod.mk.injEq] at k1 k2
  subst k1
  rw [← k2.2, parsed_entries hp, h3, k4] at k3
  simp only [Res.ok.injEq, List.cons.injEq, CertEntry.x509.injEq] at k3
  rw [k3.1]
  exact ⟨algo, k5, k6⟩

/-- **C62, refuted** Only the first certificate of the list matters: intermediates sent by the server are not used. -/
theorem C62_refuted (S : Suite) (W : WebLib) (alloc : Bool) (now : Option Nat) (N : Nat) (tr : Bytes) (ctx : Bytes)
    (e : CertEntry) (rest rest' : List CertEntry) (raw raw' : Bytes) (v : PkiVerifier) (h : raw.length ≤ N)
    (h' : raw'.length ≤ N) :
    ((webOps W S alloc now N).verifyCertificate tr ⟨raw, ctx, e :: rest⟩ v).1 =
      ((webOps W S alloc now N).verifyCertificate tr ⟨raw', ctx, e :: rest'⟩ v).1 := by
  have hc : webVerifyChain W v.host v.ca (e :: rest) now = webVerifyChain W v.host v.ca (e :: rest') now := by
    unfold webVerifyChain
    cases v.ca with
    | rawPublicKey _ => rfl
    | x509 ca => cases e <;> rfl
  simp only [webOps, webVerifyCertificate, M.get_bind]
  rw [hc]
  cases webVerifyChain W v.host v.ca (e :: rest') now with
  | err x => rfl
  | panic => rfl
  | ok u =>
    rw [M.lift_ok_bind, M.lift_ok_bind]
    unfold certOwned
    simp only [if_pos h, if_pos h']
    split <;> rfl

/-! ## C58: who may issue certificates -/

/-- **C58, refuted** A leaf certificate can issue certificates for any host: the list is accepted although the certificate
in the middle carries no extension at all, in particular not basicConstraints with cA. -/
theorem C58_refuted : ∃ (L : PkiLib) (c : CertMsg) (leaf inter : Bytes) (dc : DecodedCert) (v : PkiVerifier),
    c.entries = [.x509 leaf, .x509 inter] ∧ L.fromDer inter = some dc ∧ dc.extensions = none ∧
    ((pkiOps L toySuite allFeatures (some 20) 1000).verifyCertificate [] c v).1 = .ok () :=
  ⟨toyPki, toyMsg [toyLeaf, toyInter], toyLeaf, toyInter, _, toyVerifier "www.example.com", rfl, rfl, by decide +kernel,
    by decide +kernel⟩

/-! ## C59: which DNS names count -/

/-- **C59, refuted** The fourth DNS name of a certificate is ignored. -/
theorem C59_refuted : ∃ (L : PkiLib) (c : CertMsg) (leaf host : Bytes) (dc : DecodedCert) (v : PkiVerifier),
    c.entries = [.x509 leaf] ∧ L.fromDer leaf = some dc ∧ v.host = some host ∧ DnsNameOf L dc host ∧
    HostMatches host host ∧
    ((pkiOps L toySuite allFeatures (some 20) 1000).verifyCertificate [] c v).1 = .err .invalidCertificate := by
  refine ⟨toyPki, toyMsg [toyCert 1 3 10 50 "" ["a.b", "c.d", "e.f", "g.h"]],
    toyCert 1 3 10 50 "" ["a.b", "c.d", "e.f", "g.h"], ascii "g.h", _, toyVerifier "g.h", rfl, rfl, rfl, ?_, ?_, by decide +kernel⟩
  · refine ⟨[⟨[2, 5, 29, 17], none, 4, [48, 20, 130, 3, 97, 46, 98, 130, 3, 99, 46, 100, 130, 3, 101, 46, 102, 130, 3, 103, 46, 104]⟩],
      _, [48, 20], [130, 3, 97, 46, 98, 130, 3, 99, 46, 100, 130, 3, 101, 46, 102, 130, 3, 103, 46, 104], [], by decide +kernel,
      List.mem_cons_self, rfl, rfl, rfl, rfl, rfl, ?_⟩
    refine .later [130, 3] [97, 46, 98] _ rfl (.later [130, 3] [99, 46, 100] _ rfl
      (.later [130, 3] [101, 46, 102] _ rfl (.here [130, 3] [] rfl rfl)))
  · rw [← C49_hostname_match]; decide +kernel

end ETls
