import Verif.Props.NativeAuth

/-!
# C59, C63 to C65: what the native verifier accepts

The converse of C51: a chain that leads to the CA is accepted, within the limits of the library.
-/

namespace ETls
open Spec

variable {L : PkiLib} {F : Features}

theorem certAlgo_enabled {a : AlgId} {algo : SigAlgo} (hm : (a, algo) ∈ certificateAlgorithms) (he : Enabled F algo) :
    certAlgo F a = some algo := by
  obtain ⟨f1, f2, f3⟩ := F
  simp only [certificateAlgorithms, List.mem_cons, Prod.mk.injEq, List.not_mem_nil, or_false] at hm
  rcases hm with ⟨rfl, rfl⟩ | ⟨rfl, rfl⟩ | ⟨rfl, rfl⟩ | ⟨rfl, rfl⟩ | ⟨rfl, rfl⟩ | ⟨rfl, rfl⟩ <;>
    simp only [Enabled] at he <;> (try subst he) <;>
    simp [certAlgo, algEcdsaSha256, algEcdsaSha384, algEd25519, algRsaSha256, algRsaSha384, algRsaSha512]

theorem extractCommonName_ok {subject : List (List Attr)}
    (h : ∀ rdn ∈ subject, ∃ a as, rdn = a :: as ∧ (a.oid = [2, 5, 4, 3] → a.value.length ≤ 64)) (cn : Option Bytes) :
    ∃ r, extractCommonName L subject cn = .ok r := by
  induction subject generalizing cn with
  | nil => exact ⟨cn, rfl⟩
  | cons x xs ih =>
    obtain ⟨a, as, rfl, ha⟩ := h x List.mem_cons_self
    have ih := ih fun r hr => h r (List.mem_cons_of_mem _ hr)
    simp only [extractCommonName]
    by_cases ho : a.oid = oidCommonName
    · rw [if_pos ho, if_pos (ha ho)]; exact ih _
    · rw [if_neg ho]; exact ih _

theorem extractCommonName_fits {subject : List (List Attr)} {cn r : Option Bytes}
    (h : extractCommonName L subject cn = .ok r) :
    ∀ rdn ∈ subject, ∃ a as, rdn = a :: as ∧ (a.oid = [2, 5, 4, 3] → a.value.length ≤ 64) := by
  induction subject generalizing cn with
  | nil => intro rdn hr; cases hr
  | cons x xs ih =>
    cases x with
    | nil => cases h
    | cons a as =>
      simp only [extractCommonName] at h
      intro rdn hr
      by_cases ho : a.oid = oidCommonName
      · rw [if_pos ho] at h
        by_cases hl : a.value.length ≤ 64
        · rw [if_pos hl] at h
          rcases List.mem_cons.1 hr with rfl | hr
          · exact ⟨a, as, rfl, fun _ => hl⟩
          · exact ih h rdn hr
        · rw [if_neg hl] at h; cases h
      · rw [if_neg ho] at h
        rcases List.mem_cons.1 hr with rfl | hr
        · exact ⟨a, as, rfl, fun hx => absurd hx ho⟩
        · exact ih h rdn hr

theorem extractCommonName_none {subject : List (List Attr)}
    (h : ∀ rdn ∈ subject, ∃ a as, rdn = a :: as ∧ (a.oid = [2, 5, 4, 3] → a.value.length ≤ 64))
    (hn : ∀ rdn ∈ subject, ∀ a ∈ rdn, a.oid ≠ [2, 5, 4, 3]) (cn : Option Bytes) :
    extractCommonName L subject cn = .ok cn := by
  induction subject with
  | nil => rfl
  | cons x xs ih =>
    obtain ⟨a, as, rfl, ha⟩ := h x List.mem_cons_self
    simp only [extractCommonName]
    have ho : ¬ a.oid = oidCommonName := hn _ List.mem_cons_self a List.mem_cons_self
    rw [if_neg ho]
    exact ih (fun r hr => h r (List.mem_cons_of_mem _ hr)) fun r hr => hn r (List.mem_cons_of_mem _ hr)

theorem extractCommonName_append {pre rest : List (List Attr)} (cn : Option Bytes)
    (h : ∀ rdn ∈ pre, ∃ a as, rdn = a :: as ∧ (a.oid = [2, 5, 4, 3] → a.value.length ≤ 64)) :
    ∃ cn', extractCommonName L (pre ++ rest) cn = extractCommonName L rest cn' := by
  induction pre generalizing cn with
  | nil => exact ⟨cn, rfl⟩
  | cons x xs ih =>
    obtain ⟨a, as, rfl, ha⟩ := h x List.mem_cons_self
    have ih := fun c => ih c fun r hr => h r (List.mem_cons_of_mem _ hr)
    simp only [List.cons_append, extractCommonName]
    by_cases ho : a.oid = oidCommonName
    · rw [if_pos ho, if_pos (ha ho)]; exact ih _
    · rw [if_neg ho]; exact ih _

theorem extractCommonName_last {dc : DecodedCert} {name : Bytes} (hf : SubjectFits dc) (h : LastCommonName L dc name) :
    extractCommonName L dc.subject none = .ok (some name) := by
  obtain ⟨pre, as, post, h1, h2, h3⟩ := h
  unfold SubjectFits at hf
  rw [h1] at hf ⊢
  obtain ⟨cn, hc⟩ := extractCommonName_append (L := L) (rest := (⟨[2, 5, 4, 3], name⟩ :: as) :: post) none
    (fun r hr => hf r (List.mem_append_left _ hr))
  rw [hc]
  obtain ⟨a, as', e, hl⟩ := hf (⟨[2, 5, 4, 3], name⟩ :: as) (by simp)
  simp only [List.cons.injEq] at e
  rw [← e.1] at hl
  simp only [extractCommonName, oidCommonName, if_true]
  rw [if_pos (hl rfl), h2]
  exact extractCommonName_none (fun r hr => hf r (by simp [hr])) h3 _

theorem sanLoop_general {b : Bytes} {gs : List (UInt8 × Bytes)} (h : GeneralNames L b gs) :
    ∀ (fuel : Nat) (names : List Bytes), b.length < fuel → names.length < 3 → NamesFit L (dnsNames gs) →
      sanLoop L fuel b names = .ok ((names ++ dnsNames gs).take 3) := by
  induction h with
  | nil =>
    intro fuel names hf hn _
    obtain ⟨f, rfl⟩ : ∃ f, fuel = f + 1 := ⟨fuel - 1, by simp at hf; omega⟩
    simp only [sanLoop, dnsNames, List.append_nil]
    rw [List.take_of_length_le (by omega)]
  | cons hd value rest tag gs hh ht hr ih =>
    intro fuel names hf hn hfit
    obtain ⟨f, rfl⟩ : ∃ f, fuel = f + 1 := ⟨fuel - 1, by omega⟩
    obtain ⟨hd', rfl⟩ : ∃ hd', hd = tag :: hd' := by
      cases hd with
      | nil => cases ht
      | cons x xs => simp only [List.head?_cons, Option.some.injEq] at ht; exact ⟨xs, by rw [ht]⟩
    have hd1 : (tag :: hd' ++ value ++ rest).drop (tag :: hd').length = value ++ rest := by
      rw [List.append_assoc, List.drop_left]
    have hs : derSlice value.length (value ++ rest) = some (value, rest) := by
      unfold derSlice
      rw [if_pos (by simp)]
      simp
    have hl : rest.length < f := by
      simp only [List.length_append, List.length_cons] at hf; omega
    have hb : tag :: hd' ++ value ++ rest = tag :: (hd' ++ value ++ rest) := by simp
    rw [hb] at hh hd1
    rw [hb]
    simp only [sanLoop, hh, hd1, hs]
    by_cases ht2 : tag = 0x82
    · subst ht2
      simp only [dnsNames, if_true] at hfit ⊢
      obtain ⟨f1, f2⟩ := hfit value List.mem_cons_self
      have hfit' : NamesFit L (dnsNames gs) := fun n hn => hfit n (List.mem_cons_of_mem _ hn)
      rw [if_pos (by simp [f1, f2]), if_pos hn]
      by_cases h3 : (names ++ [value]).length = 3
      · rw [if_pos h3]
        have : names ++ value :: dnsNames gs = (names ++ [value]) ++ dnsNames gs := by simp
        rw [this, ← h3, List.take_left]
      · rw [if_neg h3]
        rw [ih f _ hl (by simp at h3 ⊢; omega) hfit']
        simp
    · simp only [dnsNames, if_neg ht2] at hfit ⊢
      exact ih f _ hl hn hfit

theorem sanExtensions_skip {xs : List CertExt} (h : ∀ e ∈ xs, e.id ≠ [2, 5, 29, 17]) (ys : List CertExt)
    (names : List Bytes) : sanExtensions L (xs ++ ys) names = sanExtensions L ys names := by
  induction xs with
  | nil => rfl
  | cons x xs ih =>
    simp only [List.cons_append, sanExtensions]
    have hx : x.id ≠ oidSubjectAltName := h x List.mem_cons_self
    rw [if_pos hx]
    exact ih fun e he => h e (List.mem_cons_of_mem _ he)

theorem extractSanDnsNames_names {dc : DecodedCert} {names : List Bytes} (h : SanNames L dc names)
    (hf : NamesFit L names) : extractSanDnsNames L dc = .ok (names.take 3) := by
  unfold extractSanDnsNames
  cases h with
  | absent h =>
    cases hx : dc.extensions with
    | none => rfl
    | some xs =>
      simp only
      have := sanExtensions_skip (L := L) (h xs hx) [] []
      rw [List.append_nil] at this
      rw [this]; rfl
  | present pre post e hd content rest gs h hid hothers htag hvalue hheader hseq hnames =>
    rw [h]
    simp only
    rw [sanExtensions_skip fun x hx => hothers x (List.mem_append_left _ hx)]
    simp only [sanExtensions]
    have he : extractSan L e [] = .ok ((dnsNames gs).take 3) := by
      unfold extractSan
      rw [if_neg (by simp [htag])]
      simp only [hheader]
      have hh : e.value.head? = some 0x30 := by
        rw [hvalue]
        cases hd with
        | nil => cases hseq
        | cons x xs => simpa using hseq
      rw [if_neg (by simp [hh])]
      have hdrop : e.value.drop hd.length = content ++ rest := by rw [hvalue, List.append_assoc, List.drop_left]
      have hs : derSlice content.length (content ++ rest) = some (content, rest) := by
        unfold derSlice
        rw [if_pos (by simp)]
        simp
      simp only [hdrop, hs]
      exact sanLoop_general hnames _ [] (by simp) (by simp) hf
    rw [if_neg (by simp [hid, oidSubjectAltName]), he]
    simp only
    have := sanExtensions_skip (L := L) (fun x hx => hothers x (List.mem_append_right _ hx)) [] ((dnsNames gs).take 3)
    rw [List.append_nil] at this
    rw [this]; rfl

/-- The certificate can be read by the library: its subject and at most one subjectAltName extension with these names. -/
def Readable (L : PkiLib) (cert : Bytes) (names : List Bytes) : Prop :=
  ∃ dc, L.fromDer cert = some dc ∧ SubjectFits dc ∧ SanNames L dc names ∧ NamesFit L names

theorem chain_complete {now : Option Nat} {ca : CertEntry} (hEd : ∀ k, L.keyOk .ed25519 k = true → k.length = 32) :
    ∀ (certs : List Bytes) (names0 : CertNames),
    (∀ (i : Nat) (cert : Bytes), certs[i]? = some cert → ValidAt L now cert ∧ (∃ names, Readable L cert names) ∧
      ∃ issuer, (certs.map CertEntry.x509 ++ [ca])[i + 1]? = some (.x509 issuer) ∧ IssuedWith L F issuer cert) →
    ∃ r, verifyChain L F now ca (certs.map CertEntry.x509).reverse names0 = .ok r ∧
      ∀ leaf rest dc, certs = leaf :: rest → L.fromDer leaf = some dc →
        extractCommonName L dc.subject none = .ok r.commonName ∧ extractSanDnsNames L dc = .ok r.sans := by
  intro certs
  induction certs with
  | nil => intro names0 _; exact ⟨names0, rfl, by simp⟩
  | cons cert rest ih =>
    intro names0 h
    obtain ⟨r0, h0, -⟩ := ih names0 (fun i c hc => by simpa using h (i + 1) c (by simpa using hc))
    obtain ⟨hv, ⟨names, dc, hd, hsf, hsn, hnf⟩, issuer, hi, di, dc', key, algo, tbs, sig, e1, e2, e3, e4, e5, e6, e7, e8⟩ :=
      h 0 cert rfl
    rw [hd] at e2
    injection e2 with e2
    subst e2
    obtain ⟨cn, hcn⟩ := extractCommonName_ok (L := L) hsf none
    have hsan := extractSanDnsNames_names hsn hnf
    refine ⟨⟨cn, names.take 3⟩, ?_, ?_⟩
    · rw [List.map_cons, List.reverse_cons, verifyChain_snoc]
      refine ⟨⟨r0, h0⟩, ?_⟩
      have hlast : (rest.map CertEntry.x509).reverse.getLast?.getD ca = .x509 issuer := by
        cases rest with
        | nil =>
          simp only [List.map_cons, List.map_nil, List.cons_append, List.nil_append, Nat.zero_add, List.getElem?_cons_succ,
            List.getElem?_cons_zero, Option.some.injEq] at hi
          simpa using hi
        | cons x xs => simpa using hi
      rw [hlast]
      exact verifyCertEntry_complete (names := ⟨cn, names.take 3⟩) e1 hd e3 (certAlgo_enabled e4 e5) e6 e7 e8
        (fun ha => hEd key (by subst ha; exact e8.1)) hv hcn hsan
    · intro leaf rest' dc' he hl
      simp only [List.cons.injEq] at he
      rw [← he.1, hd] at hl
      injection hl with hl
      subst hl
      exact ⟨hcn, hsan⟩

/-- **C64** A chain that leads to the CA, with algorithms compiled in and names the library can read, is accepted for a host
that matches one of the first three DNS names of the leaf or its last common name.  The Certificate must fit into the
verifier's storage (`N` bytes); an Ed25519 key has 32 bytes. -/
theorem C64_valid_chain_accepted (S : Suite) (now : Option Nat) (N : Nat) (tr : Bytes) (c : CertMsg) (v : PkiVerifier)
    (certs : List Bytes) (leaf : Bytes) (rest : List Bytes) (dc : DecodedCert) (names : List Bytes) (host name : Bytes)
    (hEd : ∀ k, L.keyOk .ed25519 k = true → k.length = 32) (hc : c.entries = certs.map .x509)
    (hctx : c.requestContext.length ≤ 256) (hN : c.rawEntries.length ≤ N)
    (hchain : ∀ (i : Nat) (cert : Bytes), certs[i]? = some cert → ValidAt L now cert ∧ (∃ names, Readable L cert names) ∧
      ∃ issuer, (certs.map CertEntry.x509 ++ [v.ca])[i + 1]? = some (.x509 issuer) ∧ IssuedWith L F issuer cert)
    (hleaf : certs = leaf :: rest) (hd : L.fromDer leaf = some dc) (hsan : SanNames L dc names) (hfit : NamesFit L names)
    (hsub : SubjectFits dc) (hh : v.host = some host) (hm : HostMatches name host)
    (hname : name ∈ names.take 3 ∨ LastCommonName L dc name) :
    ((pkiOps L S F now N).verifyCertificate tr c v).1 = .ok () := by
  obtain ⟨r, h1, h2⟩ := chain_complete (F := F) hEd certs ⟨none, []⟩ hchain
  obtain ⟨h3, h4⟩ := h2 leaf rest dc hleaf hd
  rw [extractSanDnsNames_names hsan hfit] at h4
  injection h4 with h4
  have hmatch : hostnameMatch r (some host) = true := by
    rw [hostnameMatch_iff]
    rcases hname with hn | hn
    · exact .inl ⟨name, h4 ▸ hn, hm⟩
    · rw [extractCommonName_last hsub hn] at h3
      injection h3 with h3
      exact .inr ⟨name, h3.symm, hm⟩
  simp only [pkiOps, pkiVerifyCertificate, M.get_bind]
  rw [hc, h1, M.lift_ok_bind, hh, hmatch, if_pos rfl]
  unfold certOwned
  rw [if_pos hctx, if_pos hN, M.lift_ok_bind]
  rfl

/-- **C59, the part that holds** The special case of the DNS names: each of the first three counts.  Missing: the names
after the third. -/
theorem C59_first_three_partial (S : Suite) (now : Option Nat) (N : Nat) (tr : Bytes) (c : CertMsg) (v : PkiVerifier)
    (certs : List Bytes) (leaf : Bytes) (rest : List Bytes) (dc : DecodedCert) (names : List Bytes) (host : Bytes)
    (hEd : ∀ k, L.keyOk .ed25519 k = true → k.length = 32) (hc : c.entries = certs.map .x509)
    (hctx : c.requestContext.length ≤ 256) (hN : c.rawEntries.length ≤ N)
    (hchain : ∀ (i : Nat) (cert : Bytes), certs[i]? = some cert → ValidAt L now cert ∧ (∃ names, Readable L cert names) ∧
      ∃ issuer, (certs.map CertEntry.x509 ++ [v.ca])[i + 1]? = some (.x509 issuer) ∧ IssuedWith L F issuer cert)
    (hleaf : certs = leaf :: rest) (hd : L.fromDer leaf = some dc) (hsan : SanNames L dc names) (hfit : NamesFit L names)
    (hsub : SubjectFits dc) (hh : v.host = some host) (i : Nat) (hi : i < 3) (name : Bytes)
    (hname : names[i]? = some name) (hm : HostMatches name host) :
    ((pkiOps L S F now N).verifyCertificate tr c v).1 = .ok () :=
  C64_valid_chain_accepted S now N tr c v certs leaf rest dc names host name hEd hc hctx hN hchain hleaf hd hsan hfit
    hsub hh hm (.inl (List.mem_of_getElem? (i := i) (by rw [List.getElem?_take, if_pos hi, hname])))

/-- With all algorithms compiled in, `IssuedWith` is `IssuedBy`. -/
theorem issuedWith_all {issuer cert : Bytes} (h : IssuedBy L issuer cert) : IssuedWith L allFeatures issuer cert := by
  obtain ⟨di, dc, key, algo, tbs, sig, h1, h2, h3, h4, h5, h6, h7⟩ := h
  exact ⟨di, dc, key, algo, tbs, sig, h1, h2, h3, h4, by cases algo <;> simp [Enabled, allFeatures], h5, h6, h7⟩

/-- A leaf with a common name and two DNS names. -/
def exNames : Bytes := toyCert 1 3 10 50 "c" ["a.b", "d.e"]

/-- The toy leaf meets the hypotheses of C64 on its names. -/
theorem exNames_readable : ∃ dc, toyPki.fromDer exNames = some dc ∧ SubjectFits dc ∧
    SanNames toyPki dc [ascii "a.b", ascii "d.e"] ∧ NamesFit toyPki [ascii "a.b", ascii "d.e"] := by
  refine ⟨⟨[], [[⟨[2, 5, 4, 3], [99]⟩]], 10, 50, some [3],
    some [⟨[2, 5, 29, 17], none, 4, [48, 10, 130, 3, 97, 46, 98, 130, 3, 100, 46, 101]⟩],
    ⟨[1, 2, 840, 10045, 4, 3, 2], none⟩, some _⟩, rfl, ?_, ?_, ?_⟩
  · intro rdn hr
    simp only [List.mem_cons, List.not_mem_nil, or_false] at hr
    subst hr
    exact ⟨_, _, rfl, fun _ => by simp⟩
  · refine .present [] [] _ [48, 10] [130, 3, 97, 46, 98, 130, 3, 100, 46, 101] []
      [(130, [97, 46, 98]), (130, [100, 46, 101])] rfl rfl (by simp) rfl rfl rfl rfl ?_
    exact .cons [130, 3] [97, 46, 98] _ 130 _ rfl rfl (.cons [130, 3] [100, 46, 101] [] 130 [] rfl rfl .nil)
  · intro n hn
    simp only [List.mem_cons, List.not_mem_nil, or_false] at hn
    rcases hn with rfl | rfl <;> decide

-- all hypotheses of C64 together, for the second DNS name
example : ((pkiOps toyPki toySuite allFeatures (some 20) 1000).verifyCertificate [] (toyMsg [exNames])
    (toyVerifier "D.e")).1 = .ok () := by
  obtain ⟨dc, h1, h2, h3, h4⟩ := exNames_readable
  have hl : LeadsTo toyPki (some 20) (.x509 toyCa) (some (ascii "D.e")) [exNames] := by
    obtain ⟨certs, k1, k2, k3⟩ := C51_chain toySuite (some 20) 1000 [] (toyMsg [exNames]) (toyVerifier "D.e") _
      (Prod.ext (by decide +kernel : ((pkiOps toyPki toySuite allFeatures (some 20) 1000).verifyCertificate []
        (toyMsg [exNames]) (toyVerifier "D.e")).1 = .ok ()) rfl)
    have : certs = [exNames] := by
      have : List.map CertEntry.x509 [exNames] = List.map CertEntry.x509 certs := k1
      exact ((List.map_inj_right (fun a b hab => by injection hab)).1 this).symm
    subst this
    exact ⟨k2, k3⟩
  refine C64_valid_chain_accepted toySuite (some 20) 1000 [] (toyMsg [exNames]) (toyVerifier "D.e") [exNames] exNames [] dc
    _ (ascii "D.e") (ascii "d.e") ?_ rfl (by decide) (by decide +kernel) ?_ rfl h1 h3 h4 h2 rfl ?_ (.inl (by simp))
  · intro k hk
    simpa [toyPki] using hk
  · intro i cert hi
    obtain ⟨k1, issuer, k2, k3⟩ := hl.1 i cert hi
    have : cert = exNames := by simpa using List.mem_of_getElem? hi
    subst this
    exact ⟨k1, ⟨_, dc, h1, h2, h3, h4⟩, issuer, k2, issuedWith_all k3⟩
  · rw [← C49_hostname_match]; decide +kernel

/-! ## C63: the empty certificate list -/

/-- **C63, refuted** Without a server name, the native verifier accepts an empty certificate list. -/
theorem C63_refuted (S : Suite) (L : PkiLib) (F : Features) (now : Option Nat) (N : Nat) (tr : Bytes) (ca : CertEntry) :
    ((pkiOps L S F now N).verifyCertificate tr ⟨[], [], []⟩ (PkiVerifier.new ca)).1 = .ok () := rfl

/-- **C63, the part that holds** With a server name (or with webpki in any case), the list is not empty.  Missing: the native
verifier without a server name. -/
theorem C63_partial (S : Suite) (W : WebLib) (alloc : Bool) (now : Option Nat) (N : Nat) (tr : Bytes) (c : CertMsg)
    (v v' : PkiVerifier) :
    ((pkiOps L S F now N).verifyCertificate tr c v = (.ok (), v') → v.host ≠ none → c.entries ≠ []) ∧
    ((webOps W S alloc now N).verifyCertificate tr c v = (.ok (), v') → c.entries ≠ []) := by
  constructor
  · intro h hn he
    cases hh : v.host with
    | none => exact hn hh
    | some host =>
      obtain ⟨certs, h1, -, h2⟩ := C51_chain S now N tr c v v' h
      obtain ⟨leaf, rest, _, _, rfl, _⟩ := h2 host hh
      rw [he] at h1
      cases h1
  · intro h he
    obtain ⟨h1, -⟩ := webVerifyCertificate_ok h
    obtain ⟨_, leaf, rest, _, h2, _⟩ := webVerifyChain_ok h1
    rw [he] at h2
    cases h2

/-- **C65** Without a server name, a non-empty list is accepted only if the leaf has neither common name nor DNS names that
the library reads: the native verifier does not connect to an unnamed server with a named certificate. -/
theorem C65_no_server_name (S : Suite) (now : Option Nat) (N : Nat) (tr : Bytes) (c : CertMsg) (v v' : PkiVerifier)
    (h : (pkiOps L S F now N).verifyCertificate tr c v = (.ok (), v')) (hn : v.host = none) (leaf : Bytes)
    (rest : List CertEntry) (hc : c.entries = .x509 leaf :: rest) (dc : DecodedCert) (hd : L.fromDer leaf = some dc) :
    (∀ name, ¬ LastCommonName L dc name) ∧ ∀ names, SanNames L dc names → NamesFit L names → names = [] := by
  obtain ⟨r, h1, h2, -⟩ := pkiVerifyCertificate_ok h
  obtain ⟨certs, k1, -, -, k2⟩ := verifyChain_ok h1
  rw [hc] at k1
  cases certs with
  | nil => cases k1
  | cons x xs =>
    simp only [List.map_cons, List.cons.injEq, CertEntry.x509.injEq] at k1
    obtain ⟨dc', m1, -, -, m2, m3⟩ := k2 x xs rfl
    rw [← k1.1, hd] at m1
    injection m1 with m1
    subst m1
    rw [hn] at h2
    simp only [hostnameMatch, Bool.and_eq_true, Option.isNone_iff_eq_none, List.isEmpty_iff] at h2
    refine ⟨fun name hl => ?_, fun names hs hf => ?_⟩
    · have hf : SubjectFits dc := extractCommonName_fits m2
      rw [extractCommonName_last hf hl, h2.1] at m2
      cases m2
    · rw [extractSanDnsNames_names hs hf] at m3
      injection m3 with m3
      rw [h2.2] at m3
      cases names with
      | nil => rfl
      | cons a b => simp at m3

-- without a server name: a leaf without names is accepted, one with a common name or a DNS name is not
example : ((pkiOps toyPki toySuite allFeatures (some 20) 1000).verifyCertificate [] (toyMsg [toyCert 1 3 10 50 "" []])
    (toyVerifier none)).1 = .ok () := by decide +kernel
example : ((pkiOps toyPki toySuite allFeatures (some 20) 1000).verifyCertificate [] (toyMsg [toyCert 1 3 10 50 "c" []])
    (toyVerifier none)).1 = .err .invalidCertificate := by decide +kernel
example : ((pkiOps toyPki toySuite allFeatures (some 20) 1000).verifyCertificate [] (toyMsg [toyCert 1 3 10 50 "" ["d.e"]])
    (toyVerifier none)).1 = .err .invalidCertificate := by decide +kernel

end ETls
