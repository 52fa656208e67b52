import Verif.Spec.Complaint
import Verif.Props.PkiComplete

/-!
# C100: errors of the verifiers name their cause
-/

namespace ETls
open Spec

variable {L : PkiLib} {F : Features} {now : Option Nat}

theorem certAlgo_isEnabled {a : AlgId} {algo : SigAlgo} (h : certAlgo F a = some algo) : Enabled F algo := by
  unfold certAlgo at h
  repeat' split at h
  all_goals first
    | (cases h; done)
    | (injection h with h; subst h; rename_i hc; first | trivial | exact hc.1)

theorem certAlgo_none {a : AlgId} : certAlgo F a = none ↔ ∀ algo, (a, algo) ∈ certificateAlgorithms → ¬ Enabled F algo := by
  constructor
  · intro h algo hm he
    rw [certAlgo_enabled hm he] at h
    cases h
  · intro h
    cases hc : certAlgo F a with
    | none => rfl
    | some algo => exact absurd (certAlgo_isEnabled hc) (h algo (certAlgo_mem hc))

theorem certTlvBytes_iff {der tbs : Bytes} : certTlvBytes L der = some tbs ↔ FirstElement L der tbs := by
  refine ⟨certTlvBytes_first, ?_⟩
  rintro ⟨outer, rest, n, h, m, e1, e2, e3, e4, e5, e6⟩
  have hd : der.drop outer.length = tbs ++ rest := by rw [e1, List.append_assoc, List.drop_left]
  have hh : (tbs ++ rest).head? = some 0x30 := by
    cases tbs with
    | nil => cases e6
    | cons x xs => exact e6
  unfold certTlvBytes derSlice
  simp only [e2, e3, hd, e4, hh, ne_eq, not_true, if_false, ← e5, List.length_append, Nat.le_add_right, if_true,
    Option.map_some, List.take_left]

theorem outOfPeriod_iff {cert : Bytes} {dc : DecodedCert} (hd : L.fromDer cert = some dc) :
    outOfPeriod now dc = false ↔ ValidAt L now cert := by
  constructor
  · intro h
    refine ⟨dc, hd, ?_⟩
    rintro t rfl
    simp only [outOfPeriod, Bool.or_eq_false_iff, decide_eq_false_iff_not] at h
    omega
  · rintro ⟨dc', e1, e2⟩
    rw [hd] at e1
    injection e1 with e1
    subst e1
    cases now with
    | none => rfl
    | some t =>
      have := e2 t rfl
      simp only [outOfPeriod, Bool.or_eq_false_iff, decide_eq_false_iff_not]
      omega

theorem names_error {dc : DecodedCert} (h : (∃ e, extractCommonName L dc.subject none = .err e) ∨
    ∃ e, extractSanDnsNames L dc = .err e) : ¬ NamesCanBeRead L dc := by
  rintro ⟨hs, names, hn, hf⟩
  rcases h with ⟨e, h⟩ | ⟨e, h⟩
  · obtain ⟨r, hr⟩ := extractCommonName_ok (L := L) hs none
    rw [hr] at h; cases h
  · rw [extractSanDnsNames_names hn hf] at h; cases h

/-- An error for one entry names its cause. -/
theorem entry_defect {issuer cert : CertEntry} {e : TlsError} (h : verifyCertEntry L F issuer cert now = .err e) :
    Defect L F now issuer cert e := by
  unfold verifyCertEntry at h
  cases issuer with
  | rawPublicKey k => cases h; exact .issuerNotX509 _ _
  | x509 ca =>
  simp only at h
  cases h1 : L.fromDer ca with
  | none => rw [h1] at h; cases h; exact .issuerUndecodable _ _ h1
  | some di =>
  rw [h1] at h
  cases cert with
  | rawPublicKey k => cases h; exact .notX509 _ _ (by rw [h1]; simp)
  | x509 der =>
  simp only at h
  cases h2 : L.fromDer der with
  | none => rw [h2] at h; cases h; exact .undecodable _ _ (by rw [h1]; simp) h2
  | some dc =>
  rw [h2] at h
  simp only at h
  cases h3 : di.publicKey with
  | none => rw [h3] at h; cases h; exact .issuerWithoutKey _ _ _ _ h1 h2 h3
  | some key =>
  rw [h3] at h
  simp only at h
  cases h4 : extractCommonName L dc.subject none with
  | err x => rw [h4] at h; cases h; exact .unreadable _ _ _ _ _ h1 h2 h3 (names_error (.inl ⟨x, h4⟩))
  | panic => rw [h4] at h; cases h
  | ok cn =>
  rw [h4] at h
  simp only at h
  cases h5 : extractSanDnsNames L dc with
  | err x => rw [h5] at h; cases h; exact .unreadable _ _ _ _ _ h1 h2 h3 (names_error (.inr ⟨x, h5⟩))
  | panic => rw [h5] at h; cases h
  | ok sans =>
  rw [h5] at h
  simp only at h
  cases ht : outOfPeriod now dc with
  | true =>
    rw [ht, if_pos rfl] at h
    cases h
    refine .expired _ _ _ _ _ h1 h2 h3 fun hv => ?_
    rw [(outOfPeriod_iff h2).2 hv] at ht
    cases ht
  | false =>
  rw [ht, if_neg (by simp)] at h
  have hv := (outOfPeriod_iff h2).1 ht
  cases h6 : certTlvBytes L der with
  | none =>
    rw [h6] at h
    cases h
    refine .nothingSigned _ _ _ _ _ h1 h2 h3 hv fun tbs hf => ?_
    rw [certTlvBytes_iff.2 hf] at h6
    cases h6
  | some tbs =>
  rw [h6] at h
  simp only at h
  have hf := certTlvBytes_first h6
  cases h7 : certAlgo F dc.sigAlg with
  | none => rw [h7] at h; cases h; exact .unknownAlgorithm _ _ _ _ _ _ h1 h2 h3 hv hf (certAlgo_none.1 h7)
  | some algo =>
  rw [h7] at h
  simp only at h
  have hm := certAlgo_mem h7
  have he := certAlgo_isEnabled h7
  by_cases h32 : algo = .ed25519 ∧ key.length ≠ 32
  · unfold checkCertSignature at h
    rw [if_pos h32] at h
    cases h
  have h32' : algo = .ed25519 → key.length = 32 := fun ha => by
    by_contra hn
    exact h32 ⟨ha, hn⟩
  unfold checkCertSignature at h
  rw [if_neg h32] at h
  cases hk : L.keyOk algo key with
  | false =>
    rw [hk] at h
    cases h
    exact .badKey _ _ _ _ _ _ _ h1 h2 h3 hv hf hm he h32' hk
  | true =>
  rw [hk] at h
  simp only [Bool.not_true, Bool.false_eq_true, if_false] at h
  cases hsig : dc.signature with
  | none =>
    rw [hsig] at h
    cases h
    exact .badSignature _ _ _ _ _ _ _ h1 h2 h3 hv hf hm he h32' hk fun s hs => by rw [hsig] at hs; cases hs
  | some sig =>
  rw [hsig] at h
  simp only at h
  cases hs : L.sigOk algo sig with
  | false =>
    rw [hs] at h
    cases h
    exact .badSignature _ _ _ _ _ _ _ h1 h2 h3 hv hf hm he h32' hk fun s hs' => by
      rw [hsig] at hs'; injection hs' with hs'; rw [← hs']; exact hs
  | true =>
  rw [hs] at h
  simp only [Bool.not_true, Bool.false_eq_true, if_false] at h
  cases hver : L.verify algo key tbs sig with
  | true => rw [hver] at h; cases h
  | false =>
    rw [hver] at h
    cases h
    exact .forged _ _ _ _ _ _ _ _ h1 h2 h3 hv hf hm he h32' hk hsig hs hver

/-- The names of an entry, if it is a certificate, can be read. -/
def EntryReadable (L : PkiLib) (x : CertEntry) : Prop :=
  ∀ cert dc, x = .x509 cert → L.fromDer cert = some dc → NamesCanBeRead L dc

/-- A defect of an entry whose names can be read is reported. -/
theorem defect_entry {issuer cert : CertEntry} {e : TlsError} (hr : EntryReadable L cert)
    (h : Defect L F now issuer cert e) : verifyCertEntry L F issuer cert now = .err e := by
  have key : ∀ {issuer cert key : Bytes} {di dc : DecodedCert}, L.fromDer issuer = some di → L.fromDer cert = some dc →
      di.publicKey = some key → NamesCanBeRead L dc → ∃ names, verifyCertEntry L F (.x509 issuer) (.x509 cert) now =
        if outOfPeriod now dc then .err .invalidCertificate
        else match certTlvBytes L cert with
          | none => .err .decodeError
          | some data =>
            match certAlgo F dc.sigAlg with
            | none => .err .invalidSignatureScheme
            | some algo =>
              match checkCertSignature L algo key data dc.signature with
              | .err e => .err e
              | .panic => .panic
              | .ok verified => if verified then .ok names else .err .invalidCertificate := by
    intro issuer cert key di dc h1 h2 h3 ⟨h4, names, h5, h6⟩
    obtain ⟨cn, hcn⟩ := extractCommonName_ok (L := L) h4 none
    refine ⟨⟨cn, names.take 3⟩, ?_⟩
    unfold verifyCertEntry
    simp only [h1, h2, h3, hcn, extractSanDnsNames_names h5 h6]
    rfl
  cases h with
  | issuerNotX509 k => rfl
  | issuerUndecodable issuer cert h => simp only [verifyCertEntry, h]
  | notX509 issuer k hi =>
    cases h1 : L.fromDer issuer with
    | none => exact absurd h1 hi
    | some di => simp only [verifyCertEntry, h1]
  | undecodable issuer cert hi h =>
    cases h1 : L.fromDer issuer with
    | none => exact absurd h1 hi
    | some di => simp only [verifyCertEntry, h1, h]
  | issuerWithoutKey issuer cert di dc hi hc h => simp only [verifyCertEntry, hi, hc, h]
  | unreadable issuer cert k di dc hi hc hk h => exact absurd (hr _ _ rfl hc) h
  | expired issuer cert k di dc hi hc hk h =>
    obtain ⟨names, hx⟩ := key hi hc hk (hr _ _ rfl hc)
    cases ht : outOfPeriod now dc with
    | false => exact absurd ((outOfPeriod_iff hc).1 ht) h
    | true => rw [hx, ht, if_pos rfl]
  | nothingSigned issuer cert k di dc hi hc hk hv h =>
    obtain ⟨names, hx⟩ := key hi hc hk (hr _ _ rfl hc)
    rw [hx, (outOfPeriod_iff hc).2 hv, if_neg (by simp)]
    cases h6 : certTlvBytes L cert with
    | none => rfl
    | some tbs => exact absurd (certTlvBytes_first h6) (h tbs)
  | unknownAlgorithm issuer cert k tbs di dc hi hc hk hv ht h =>
    obtain ⟨names, hx⟩ := key hi hc hk (hr _ _ rfl hc)
    rw [hx, (outOfPeriod_iff hc).2 hv, if_neg (by simp), certTlvBytes_iff.2 ht]
    simp only
    rw [certAlgo_none.2 h]
  | badKey issuer cert k tbs di dc algo hi hc hk hv ht ha he h32 h =>
    obtain ⟨names, hx⟩ := key hi hc hk (hr _ _ rfl hc)
    rw [hx, (outOfPeriod_iff hc).2 hv, if_neg (by simp), certTlvBytes_iff.2 ht]
    simp only
    rw [certAlgo_enabled ha he]
    simp only
    unfold checkCertSignature
    rw [if_neg (by rintro ⟨a, b⟩; exact b (h32 a)), h]
    rfl
  | badSignature issuer cert k tbs di dc algo hi hc hk hv ht ha he h32 hok h =>
    obtain ⟨names, hx⟩ := key hi hc hk (hr _ _ rfl hc)
    rw [hx, (outOfPeriod_iff hc).2 hv, if_neg (by simp), certTlvBytes_iff.2 ht]
    simp only
    rw [certAlgo_enabled ha he]
    simp only
    unfold checkCertSignature
    rw [if_neg (by rintro ⟨a, b⟩; exact b (h32 a)), hok]
    cases hs : dc.signature with
    | none => rfl
    | some sig => simp [h sig hs]
  | forged issuer cert k tbs sig di dc algo hi hc hk hv ht ha he h32 hok hs hsok h =>
    obtain ⟨names, hx⟩ := key hi hc hk (hr _ _ rfl hc)
    rw [hx, (outOfPeriod_iff hc).2 hv, if_neg (by simp), certTlvBytes_iff.2 ht]
    simp only
    rw [certAlgo_enabled ha he]
    simp only
    unfold checkCertSignature
    rw [if_neg (by rintro ⟨a, b⟩; exact b (h32 a)), hok, hs]
    simp [hsok, h]

/-! ## The chain -/

theorem verifyChain_err {l : List CertEntry} {p : CertEntry} {names : CertNames} {e : TlsError} :
    verifyChain L F now p l names = .err e ↔ ∃ pre x post, l = pre ++ x :: post ∧
      (∃ r, verifyChain L F now p pre names = .ok r) ∧ verifyCertEntry L F (pre.getLast?.getD p) x now = .err e := by
  induction l generalizing p names with
  | nil => simp [verifyChain]
  | cons y ys ih =>
    have hl : ∀ (zs : List CertEntry), ((y :: zs).getLast?.getD p) = zs.getLast?.getD y := by
      intro zs
      cases zs with
      | nil => rfl
      | cons z zs => simp [List.getLast?_cons]
    simp only [verifyChain]
    constructor
    · intro h
      cases hy : verifyCertEntry L F p y now with
      | panic => rw [hy] at h; cases h
      | err x =>
        rw [hy] at h
        exact ⟨[], y, ys, rfl, ⟨names, rfl⟩, by rw [← h]; exact hy⟩
      | ok n =>
        rw [hy] at h
        obtain ⟨pre, x, post, rfl, ⟨r, hr⟩, hx⟩ := ih.1 h
        exact ⟨y :: pre, x, post, rfl, ⟨r, by simp only [verifyChain, hy]; exact hr⟩, by rw [hl]; exact hx⟩
    · rintro ⟨pre, x, post, hp, ⟨r, hr⟩, hx⟩
      cases pre with
      | nil =>
        simp only [List.nil_append, List.cons.injEq] at hp
        obtain ⟨rfl, rfl⟩ := hp
        simp only [List.getLast?_nil, Option.getD_none] at hx
        rw [hx]
      | cons z zs =>
        simp only [List.cons_append, List.cons.injEq] at hp
        obtain ⟨rfl, rfl⟩ := hp
        simp only [verifyChain] at hr
        cases hy : verifyCertEntry L F p y now with
        | panic => rw [hy] at hr; cases hr
        | err x => rw [hy] at hr; cases hr
        | ok n =>
          rw [hy] at hr
          simp only at hr ⊢
          exact ih.2 ⟨zs, x, post, rfl, ⟨r, hr⟩, by rw [← hl]; exact hx⟩

theorem verifyCertEntry_with {issuer cert : Bytes} {names : CertNames}
    (h : verifyCertEntry L F (.x509 issuer) (.x509 cert) now = .ok names) : IssuedWith L F issuer cert := by
  obtain ⟨i, c, dc, e1, e2, h2, ⟨di, dc', key, algo, tbs, sig, g1, g2, g3, g4, g5, g6, g7⟩, -⟩ := verifyCertEntry_ok h
  injection e1 with e1
  injection e2 with e2
  subst e1; subst e2
  refine ⟨di, dc', key, algo, tbs, sig, g1, g2, g3, g4, ?_, g5, g6, g7⟩
  by_contra hne
  have hn : certAlgo F dc'.sigAlg = none := by
    rw [certAlgo_none]
    intro a ha
    have : a = algo := by
      simp only [certificateAlgorithms, List.mem_cons, Prod.mk.injEq, List.not_mem_nil, or_false] at ha g4
      rcases g4 with ⟨k1, k2⟩ | ⟨k1, k2⟩ | ⟨k1, k2⟩ | ⟨k1, k2⟩ | ⟨k1, k2⟩ | ⟨k1, k2⟩ <;> rw [k1] at ha <;> simp at ha <;>
        rw [ha, k2]
    rw [this]; exact hne
  unfold verifyCertEntry at h
  simp only [g1, g2, g3, hn] at h
  repeat' split at h
  all_goals cases h

theorem verifyChain_vouched {ca : CertEntry} : ∀ {entries : List CertEntry} {names r : CertNames},
    verifyChain L F now ca entries.reverse names = .ok r →
    ∃ certs : List Bytes, entries = certs.map .x509 ∧ Vouched L F now ca certs := by
  intro entries
  induction entries with
  | nil => intro _ _ _; exact ⟨[], rfl, by intro i c hc; simp at hc⟩
  | cons x xs ih =>
    intro names r h
    rw [List.reverse_cons, verifyChain_snoc] at h
    obtain ⟨⟨n, h1⟩, h2⟩ := h
    obtain ⟨certs, rfl, h3⟩ := ih h1
    obtain ⟨issuer, cert, dc, h4, rfl, h5, h6, h7, -⟩ := verifyCertEntry_ok h2
    refine ⟨cert :: certs, rfl, ?_⟩
    intro i q hq
    cases i with
    | zero =>
      simp only [List.getElem?_cons_zero, Option.some.injEq] at hq
      subst hq
      rw [h4] at h2
      refine ⟨h7, issuer, ?_, verifyCertEntry_with h2⟩
      rw [List.getLast?_reverse] at h4
      rw [List.map_cons, List.cons_append, List.getElem?_cons_succ]
      cases certs with
      | nil => simpa using h4
      | cons c cs => simpa using h4
    | succ i =>
      rw [List.getElem?_cons_succ] at hq
      rw [List.map_cons, List.cons_append, List.getElem?_cons_succ]
      exact h3 i q hq

theorem last_head (certs : List Bytes) (ca : CertEntry) :
    (certs.map CertEntry.x509).reverse.getLast?.getD ca = (certs.map CertEntry.x509 ++ [ca]).headD ca := by
  rw [List.getLast?_reverse]
  cases certs <;> rfl

theorem generalNames_unique {b : Bytes} {gs gs' : List (UInt8 × Bytes)} (h : GeneralNames L b gs)
    (h' : GeneralNames L b gs') : gs = gs' := by
  induction h generalizing gs' with
  | nil =>
    generalize hb : ([] : Bytes) = b at h'
    cases h' with
    | nil => rfl
    | cons hd value rest tag gs hh ht hr =>
      cases hd with
      | nil => cases ht
      | cons x xs => cases hb
  | cons hd value rest tag gs hh ht hr ih =>
    generalize hb : hd ++ value ++ rest = b at h'
    cases h' with
    | nil =>
      cases hd with
      | nil => cases ht
      | cons x xs => cases hb
    | cons hd' value' rest' tag' gs2 hh' ht' hr' =>
      rw [hb, hh'] at hh
      simp only [Option.some.injEq, Prod.mk.injEq] at hh
      rw [List.append_assoc, List.append_assoc] at hb
      obtain ⟨rfl, hb2⟩ := List.append_inj hb hh.1.symm
      obtain ⟨rfl, rfl⟩ := List.append_inj hb2 hh.2.symm
      rw [ht] at ht'
      injection ht' with ht'
      rw [ht', ih hr']

theorem sanNames_unique {dc : DecodedCert} {names names' : List Bytes} (h : SanNames L dc names)
    (h' : SanNames L dc names') : names = names' := by
  cases h with
  | absent h =>
    cases h' with
    | absent => rfl
    | present pre post e hd content rest gs hx hid => exact absurd hid (h _ hx e (by simp))
  | present pre post e hd content rest gs hx hid hothers htag hvalue hheader hseq hnames =>
    cases h' with
    | absent h => exact absurd hid (h _ hx e (by simp))
    | present pre' post' e' hd' content' rest' gs' hx' hid' hothers' htag' hvalue' hheader' hseq' hnames' =>
      have filt : ∀ (pre post : List CertExt) (e : CertExt), e.id = [2, 5, 29, 17] →
          (∀ x ∈ pre ++ post, x.id ≠ [2, 5, 29, 17]) → (pre ++ e :: post).filter (fun x => decide (x.id = [2, 5, 29, 17])) = [e] := by
        intro pre post e hid ho
        rw [List.filter_append, List.filter_cons, if_pos (by simp [hid])]
        rw [List.filter_eq_nil_iff.2, List.filter_eq_nil_iff.2]
        · rfl
        · intro x hx; simpa using ho x (List.mem_append_right _ hx)
        · intro x hx; simpa using ho x (List.mem_append_left _ hx)
      have hee : e = e' := by
        have e1 := filt pre post e hid hothers
        have e2 := filt pre' post' e' hid' hothers'
        rw [hx] at hx'
        injection hx' with hx'
        rw [hx', e2] at e1
        injection e1 with e1
        exact e1.symm
      subst hee
      rw [hheader] at hheader'
      simp only [Option.some.injEq, Prod.mk.injEq] at hheader'
      rw [hvalue, List.append_assoc, List.append_assoc] at hvalue'
      obtain ⟨rfl, hb⟩ := List.append_inj hvalue' hheader'.1
      obtain ⟨rfl, rfl⟩ := List.append_inj hb hheader'.2
      rw [generalNames_unique hnames hnames']

theorem wrongHost_of {ca : CertEntry} {certs : List Bytes} {r : CertNames} {host : Option Bytes}
    (h : verifyChain L F now ca (certs.map CertEntry.x509).reverse ⟨none, []⟩ = .ok r)
    (hm : hostnameMatch r host = false) : WrongHost L host certs := by
  obtain ⟨certs', e, -, h5, h6⟩ := verifyChain_ok h
  have : certs' = certs := ((List.map_inj_right (fun a b hab => by injection hab)).1 e).symm
  subst this
  cases host with
  | some name =>
    intro leaf rest dc n hl hd hr hcount hmatch
    obtain ⟨dc', k1, -, -, k2, k3⟩ := h6 leaf rest hl
    rw [hd] at k1
    injection k1 with k1
    subst k1
    have : hostnameMatch r (some name) = true := by
      rw [hostnameMatch_iff]
      rcases hcount with ⟨names, hs, hn⟩ | hn
      · obtain ⟨names', hs', hf'⟩ := hr.2
        have e3 := extractSanDnsNames_names hs' hf'
        rw [k3] at e3
        injection e3 with e3
        have : names.take 3 = names'.take 3 := by rw [sanNames_unique hs hs']
        exact .inl ⟨n, by rw [e3, ← this]; exact hn, hmatch⟩
      · rw [extractCommonName_last hr.1 hn] at k2
        injection k2 with k2
        exact .inr ⟨n, k2.symm, hmatch⟩
    rw [this] at hm
    cases hm
  | none =>
    simp only [hostnameMatch, Bool.and_eq_false_iff] at hm
    cases certs' with
    | nil =>
      rw [h5 rfl] at hm
      simp at hm
    | cons leaf rest =>
      obtain ⟨dc, k1, k2, k3, -, -⟩ := h6 leaf rest rfl
      rcases hm with hm | hm
      · cases hc : r.commonName with
        | none => rw [hc] at hm; simp at hm
        | some n => exact ⟨leaf, rest, dc, n, rfl, k1, .inr (k2 n hc)⟩
      · cases hs : r.sans with
        | nil => rw [hs] at hm; simp at hm
        | cons n ns => exact ⟨leaf, rest, dc, n, rfl, k1, .inl (k3 n (by rw [hs]; exact List.mem_cons_self))⟩

theorem certOwned_err {N : Nat} {c : CertMsg} {e : TlsError} :
    certOwned N c = .err e ↔ e = .outOfMemory ∧ (256 < c.requestContext.length ∨ N < c.rawEntries.length) := by
  unfold certOwned
  by_cases h1 : c.requestContext.length ≤ 256
  · rw [if_pos h1]
    by_cases h2 : c.rawEntries.length ≤ N
    · rw [if_pos h2]; constructor
      · intro h; cases h
      · rintro ⟨_, h⟩; omega
    · rw [if_neg h2]; constructor
      · intro h; cases h; exact ⟨rfl, by omega⟩
      · rintro ⟨rfl, _⟩; rfl
  · rw [if_neg h1]; constructor
    · intro h; cases h; exact ⟨rfl, by omega⟩
    · rintro ⟨rfl, _⟩; rfl

theorem certOwned_cases (N : Nat) (c : CertMsg) :
    certOwned N c = .ok (c.requestContext, c.rawEntries) ∨ certOwned N c = .err .outOfMemory := by
  unfold certOwned
  split
  · split
    · exact .inl rfl
    · exact .inr rfl
  · exact .inr rfl

/-- **C100** An error of the native verifier on a Certificate message names what is wrong with it. -/
theorem C100_native (S : Suite) (N : Nat) (tr : Bytes) (c : CertMsg) (v : PkiVerifier) (e : TlsError)
    (h : ((pkiOps L S F now N).verifyCertificate tr c v).1 = .err e) : Complaint L F now N v.ca v.host c e := by
  simp only [pkiOps, pkiVerifyCertificate, M.get_bind] at h
  cases h1 : verifyChain L F now v.ca c.entries.reverse ⟨none, []⟩ with
  | panic => rw [h1, M.lift_panic_bind] at h; cases h
  | err x =>
    rw [h1, M.lift_err_bind] at h
    injection h with h
    subst h
    obtain ⟨pre, b, post, hp, ⟨r, hr⟩, hb⟩ := verifyChain_err.1 h1
    have hpre : pre = pre.reverse.reverse := by simp
    rw [hpre] at hr
    obtain ⟨certs, hc, hv⟩ := verifyChain_vouched hr
    have he : c.entries = post.reverse ++ b :: certs.map .x509 := by
      rw [← hc, ← List.reverse_reverse c.entries, hp]
      simp
    refine .entry post.reverse b certs x he hv ?_
    rw [← last_head, ← hc, ← hpre]
    exact entry_defect hb
  | ok r =>
    rw [h1, M.lift_ok_bind] at h
    obtain ⟨certs, hc, hv⟩ := verifyChain_vouched h1
    cases h2 : hostnameMatch r v.host with
    | false =>
      rw [h2, if_neg (by simp)] at h
      cases h
      rw [hc] at h1
      exact .host certs hc hv (wrongHost_of h1 h2)
    | true =>
      rw [h2, if_pos rfl] at h
      rcases certOwned_cases N c with h3 | h3
      · rw [h3, M.lift_ok_bind] at h; cases h
      · rw [h3, M.lift_err_bind] at h
        injection h with h
        subst h
        refine .storage certs hc hv ?_ (certOwned_err.1 h3).2
        intro host hh
        obtain ⟨certs', k1, -, k3, k4⟩ := verifyChain_ok h1
        rw [hh, hostnameMatch_iff] at h2
        have : certs' = certs := ((List.map_inj_right (fun a b hab => by injection hab)).1 (hc.symm.trans k1)).symm
        subst this
        cases certs' with
        | nil =>
          rw [k3 hc] at h2
          simp at h2
        | cons leaf rest =>
          obtain ⟨dc, m1, m2, m3, -⟩ := k4 leaf rest rfl
          rcases h2 with ⟨n, h4, h5⟩ | ⟨n, h4, h5⟩
          · exact ⟨leaf, rest, dc, n, rfl, m1, .inl (m3 n h4), h5⟩
          · exact ⟨leaf, rest, dc, n, rfl, m1, .inr (m2 n h4), h5⟩

/-- **C100** What is wrong with an entry is reported, if the entries after it (toward the CA) are in order and its names and
theirs can be read. -/
theorem C100_native_entry (S : Suite) (N : Nat) (tr : Bytes) (c : CertMsg) (v : PkiVerifier) (e : TlsError)
    (hEd : ∀ k, L.keyOk .ed25519 k = true → k.length = 32) (front : List CertEntry) (bad : CertEntry) (certs : List Bytes)
    (hc : c.entries = front ++ bad :: certs.map .x509) (hv : Vouched L F now v.ca certs)
    (hr : EntryReadable L bad) (hrs : ∀ cert ∈ certs, EntryReadable L (.x509 cert))
    (hd : Defect L F now ((certs.map CertEntry.x509 ++ [v.ca]).headD v.ca) bad e) :
    ((pkiOps L S F now N).verifyCertificate tr c v).1 = .err e := by
  have hb := defect_entry hr hd
  simp only [pkiOps, pkiVerifyCertificate, M.get_bind]
  obtain ⟨r, h1, -⟩ := chain_complete (F := F) (now := now) (ca := v.ca) hEd certs ⟨none, []⟩ (by
    intro i cert hi
    obtain ⟨k1, k2⟩ := hv i cert hi
    refine ⟨k1, ?_, k2⟩
    obtain ⟨dc, hd, -⟩ := k1
    obtain ⟨m1, names, m2, m3⟩ := hrs cert (List.mem_of_getElem? hi) cert dc rfl hd
    exact ⟨names, dc, hd, m1, m2, m3⟩)
  have : verifyChain L F now v.ca c.entries.reverse ⟨none, []⟩ = .err e := by
    rw [verifyChain_err]
    refine ⟨(certs.map CertEntry.x509).reverse, bad, front.reverse, by rw [hc]; simp, ⟨r, h1⟩, ?_⟩
    rw [last_head]
    exact hb
  rw [this, M.lift_err_bind]

/-! ## The signature of the server -/

theorem schemeAlgo_iff {x : SignatureScheme} {algo : SigAlgo} :
    schemeAlgo F x = some algo ↔ (x, algo) ∈ schemeAlgorithms ∧ Enabled F algo := by
  obtain ⟨f1, f2, f3⟩ := F
  cases x <;> cases algo <;> simp [schemeAlgo, schemeAlgorithms, Enabled]

theorem schemeAlgo_none {x : SignatureScheme} :
    schemeAlgo F x = none ↔ ∀ algo, (x, algo) ∈ schemeAlgorithms → ¬ Enabled F algo := by
  constructor
  · intro h algo hm he
    rw [schemeAlgo_iff.2 ⟨hm, he⟩] at h
    cases h
  · intro h
    cases hc : schemeAlgo F x with
    | none => rfl
    | some algo =>
      have := schemeAlgo_iff.1 hc
      exact absurd this.2 (h algo this.1)

theorem signature_defect {msg : Bytes} {entries : List CertEntry} {cv : CertVerify} {e : TlsError} :
    verifyPkiSignature L F msg entries cv = .err e ↔ SignatureDefect L F entries msg cv e := by
  constructor
  · intro h
    unfold verifyPkiSignature at h
    split at h
    · rename_i der rest
      cases h1 : L.fromDer der with
      | none => rw [h1] at h; cases h; exact .undecodable _ _ rfl h1
      | some dc =>
      rw [h1] at h
      simp only at h
      cases h2 : dc.publicKey with
      | none => rw [h2] at h; cases h; exact .withoutKey _ _ _ rfl h1 h2
      | some key =>
      rw [h2] at h
      simp only at h
      cases h3 : schemeAlgo F cv.scheme with
      | none => rw [h3] at h; cases h; exact .unknownScheme _ _ _ _ rfl h1 h2 (schemeAlgo_none.1 h3)
      | some algo =>
      rw [h3] at h
      simp only at h
      obtain ⟨h4, h5⟩ := schemeAlgo_iff.1 h3
      by_cases h32 : algo = .ed25519 ∧ key.length ≠ 32
      · rw [if_pos h32] at h; cases h
      have h32' : algo = .ed25519 → key.length = 32 := fun ha => by
        by_contra hn
        exact h32 ⟨ha, hn⟩
      rw [if_neg h32] at h
      cases hk : L.keyOk algo key with
      | false =>
        rw [hk] at h
        simp only [Bool.not_false, if_true] at h
        by_cases hp : algo = .rsaPssSha256
        · rw [if_pos hp] at h; cases h
        · rw [if_neg hp] at h; cases h; exact .badKey _ _ _ _ _ rfl h1 h2 h4 h5 h32' hp hk
      | true =>
      rw [hk] at h
      simp only [Bool.not_true, Bool.false_eq_true, if_false] at h
      cases hs : L.sigOk algo cv.signature with
      | false => rw [hs] at h; cases h; exact .badSignature _ _ _ _ _ rfl h1 h2 h4 h5 h32' hk hs
      | true =>
      rw [hs] at h
      simp only [Bool.not_true, Bool.false_eq_true, if_false] at h
      cases hv : L.verify algo key msg cv.signature with
      | true => rw [hv] at h; cases h
      | false => rw [hv] at h; cases h; exact .forged _ _ _ _ _ rfl h1 h2 h4 h5 h32' hk hs hv
    · rename_i hn
      cases h
      exact .noCertificate hn
  · intro h
    cases h with
    | noCertificate h =>
      unfold verifyPkiSignature
      split
      · exact absurd rfl (h _ _)
      · rfl
    | undecodable leaf rest hl h => subst hl; simp only [verifyPkiSignature, h]
    | withoutKey leaf rest dc hl hd h => subst hl; simp only [verifyPkiSignature, hd, h]
    | unknownScheme leaf key rest dc hl hd hk h =>
      subst hl; simp only [verifyPkiSignature, hd, hk, schemeAlgo_none.2 h]
    | badKey leaf key rest dc algo hl hd hk ha he h32 hpss h =>
      subst hl
      simp only [verifyPkiSignature, hd, hk, schemeAlgo_iff.2 ⟨ha, he⟩, h]
      rw [if_neg (by rintro ⟨a, b⟩; exact b (h32 a)), if_neg hpss]; rfl
    | badSignature leaf key rest dc algo hl hd hk ha he h32 hok h =>
      subst hl
      simp only [verifyPkiSignature, hd, hk, schemeAlgo_iff.2 ⟨ha, he⟩, hok, h]
      rw [if_neg (by rintro ⟨a, b⟩; exact b (h32 a))]; rfl
    | forged leaf key rest dc algo hl hd hk ha he h32 hok hs h =>
      subst hl
      simp only [verifyPkiSignature, hd, hk, schemeAlgo_iff.2 ⟨ha, he⟩, hok, hs, h]
      rw [if_neg (by rintro ⟨a, b⟩; exact b (h32 a))]; rfl

theorem serverSigned_cases (S : Suite) (cap : Nat) (tr : Bytes) :
    serverSigned S cap tr = if (serverSignedContent S tr).length ≤ cap then .ok (serverSignedContent S tr) else .err .encodeError := by
  have : List.replicate 64 0x20 ++ (ascii "TLS 1.3, server CertificateVerify" ++ [0]) ++ S.hash tr = serverSignedContent S tr := by
    simp [serverSignedContent]
  unfold serverSigned
  simp only [this]

/-- **C100** After an accepted Certificate message, the error of the native verifier on the signature of the server is
exactly what is wrong with the signature.  The hash has at most 48 bytes. -/
theorem C100_native_signature (S : Suite) (N : Nat) (tr : Bytes) (c : CertMsg) (v v' : PkiVerifier) (cv : CertVerify)
    (e : TlsError) (hc : (pkiOps L S F now N).verifyCertificate tr c v = (.ok (), v'))
    (hp : CertEntry.parseVector 16 ⟨c.rawEntries, 0⟩ = .ok c.entries) (hS : (S.hash tr).length ≤ 48) :
    ((pkiOps L S F now N).verifySignature cv v').1 = .err e ↔
      SignatureDefect L F c.entries (serverSignedContent S tr) cv e := by
  obtain ⟨r, -, -, rfl⟩ := pkiVerifyCertificate_ok hc
  simp only [pkiOps, pkiVerifySignature, M.get_bind, M.modify_bind]
  have hl : (serverSignedContent S tr).length ≤ 146 := by
    have : (ascii "TLS 1.3, server CertificateVerify").length = 33 := by decide
    simp only [serverSignedContent, List.length_append, List.length_replicate, this, List.length_cons, List.length_nil]
    omega
  rw [serverSigned_cases, if_pos hl, M.lift_ok_bind, hp, M.lift_ok_bind, M.lift_apply, ← signature_defect]

/-! ## webpki -/

variable {W : WebLib}

theorem webChain_complaint {N : Nat} {c : CertMsg} {ca : CertEntry} {host : Option Bytes} {e : TlsError}
    (h : webVerifyChain W host ca c.entries now = .err e) : WebComplaint W now N ca host c e := by
  unfold webVerifyChain at h
  cases ca with
  | rawPublicKey k => cases h; exact .caNotX509 k rfl
  | x509 anchor =>
  simp only at h
  cases h1 : W.anchorOk anchor with
  | false => rw [h1] at h; cases h; exact .badAnchor anchor rfl h1
  | true =>
  rw [h1] at h
  simp only [Bool.not_true, Bool.false_eq_true, if_false] at h
  split at h
  · rename_i leaf rest he
    cases h2 : W.leafOk leaf with
    | false => rw [h2] at h; cases h; exact .badLeaf anchor leaf rest rfl h1 he h2
    | true =>
    rw [h2] at h
    simp only [Bool.not_true, Bool.false_eq_true, if_false] at h
    cases h3 : W.chainOk anchor leaf (now.getD 0) with
    | false => rw [h3] at h; cases h; exact .chain anchor leaf rest rfl h1 he h2 h3
    | true =>
    rw [h3] at h
    simp only [Bool.not_true, Bool.false_eq_true, if_false] at h
    cases host with
    | none => cases h
    | some name =>
      simp only [Option.isSome_some, Bool.and_true] at h
      split at h
      · rename_i hn
        cases h
        refine .host anchor leaf name rest rfl h1 he h2 h3 rfl ?_
        rintro ⟨a, b⟩
        simp [a, b] at hn
      · cases h
  · rename_i hn
    cases h
    exact .noCertificate anchor rfl h1 hn

theorem webVerifyChain_total {c : CertMsg} {ca : CertEntry} {host : Option Bytes} :
    webVerifyChain W host ca c.entries now = .ok () ∨ ∃ e, webVerifyChain W host ca c.entries now = .err e := by
  cases h : webVerifyChain W host ca c.entries now with
  | ok u => exact .inl rfl
  | err e => exact .inr ⟨e, rfl⟩
  | panic =>
    unfold webVerifyChain at h
    simp only at h
    repeat' split at h
    all_goals cases h

/-- **C100** The error of the webpki verifier on a Certificate message is exactly what is wrong with it. -/
theorem C100_webpki (S : Suite) (alloc : Bool) (N : Nat) (tr : Bytes) (c : CertMsg) (v : PkiVerifier) (e : TlsError) :
    ((webOps W S alloc now N).verifyCertificate tr c v).1 = .err e ↔ WebComplaint W now N v.ca v.host c e := by
  simp only [webOps, webVerifyCertificate, M.get_bind]
  constructor
  · intro h
    rcases webVerifyChain_total (W := W) (now := now) (c := c) (ca := v.ca) (host := v.host) with h1 | ⟨x, h1⟩
    · rw [h1, M.lift_ok_bind] at h
      rcases certOwned_cases N c with h3 | h3
      · rw [h3, M.lift_ok_bind] at h; cases h
      · rw [h3, M.lift_err_bind] at h
        injection h with h
        subst h
        unfold webVerifyChain at h1
        cases hca : v.ca with
        | rawPublicKey k => rw [hca] at h1; cases h1
        | x509 anchor =>
        rw [hca] at h1
        simp only at h1
        cases k1 : W.anchorOk anchor with
        | false => rw [k1] at h1; cases h1
        | true =>
        rw [k1] at h1
        simp only [Bool.not_true, Bool.false_eq_true, if_false] at h1
        split at h1
        · rename_i leaf rest he
          cases k2 : W.leafOk leaf with
          | false => rw [k2] at h1; cases h1
          | true =>
          rw [k2] at h1
          simp only [Bool.not_true, Bool.false_eq_true, if_false] at h1
          cases k3 : W.chainOk anchor leaf (now.getD 0) with
          | false => rw [k3] at h1; cases h1
          | true =>
          rw [k3] at h1
          simp only [Bool.not_true, Bool.false_eq_true, if_false] at h1
          refine .storage anchor leaf rest rfl k1 he k2 k3 ?_ (certOwned_err.1 h3).2
          intro name hn
          rw [hn] at h1
          simp only [Option.isSome_some, Bool.and_true] at h1
          split at h1
          · cases h1
          · rename_i hx
            simpa using hx
        · cases h1
    · rw [h1, M.lift_err_bind] at h
      injection h with h
      subst h
      exact webChain_complaint h1
  · intro h
    cases h with
    | caNotX509 k h => rw [h]; rfl
    | badAnchor anchor hca h => simp only [webVerifyChain, hca, h]; rfl
    | noCertificate anchor hca ha h =>
      have : webVerifyChain W v.host v.ca c.entries now = .err .invalidCertificate := by
        simp only [webVerifyChain, hca, ha]
        rw [if_neg (by simp)]
      rw [this, M.lift_err_bind]
    | badLeaf anchor leaf rest hca ha hl h => simp only [webVerifyChain, hca, ha, hl, h]; rfl
    | chain anchor leaf rest hca ha hl hok h => simp only [webVerifyChain, hca, ha, hl, hok, h]; rfl
    | host anchor leaf name rest hca ha hl hok hch hh h =>
      have hb : (W.nameOk name && W.validFor leaf name) = false := by
        cases hx : (W.nameOk name && W.validFor leaf name) with
        | false => rfl
        | true => rw [Bool.and_eq_true] at hx; exact absurd hx h
      simp only [webVerifyChain, hca, ha, hl, hok, hch, hh, hb]; rfl
    | storage anchor leaf rest hca ha hl hok hch hh h =>
      have : webVerifyChain W v.host v.ca c.entries now = .ok () := by
        simp only [webVerifyChain, hca, ha, hl, hok, hch]
        cases hhost : v.host with
        | none => rfl
        | some name => obtain ⟨a, b⟩ := hh name hhost; simp [a, b]
      rw [this, M.lift_ok_bind, certOwned_err.2 ⟨rfl, h⟩, M.lift_err_bind]

theorem webAlgo_iff {alloc : Bool} {x : SignatureScheme} {algo : WebAlgo} :
    webAlgo alloc x = some algo ↔ (x, algo) ∈ webpkiAlgorithms ∧ WebEnabled alloc algo := by
  cases alloc <;> cases x <;> cases algo <;> simp [webAlgo, webpkiAlgorithms, WebEnabled]

theorem webSignature_defect {alloc : Bool} {msg : Bytes} {entries : List CertEntry} {cv : CertVerify} {e : TlsError} :
    webCheckSignature W alloc msg entries cv = .err e ↔ WebSignatureDefect W alloc entries msg cv e := by
  constructor
  · intro h
    unfold webCheckSignature at h
    split at h
    · rename_i leaf rest
      cases h1 : W.leafOk leaf with
      | false => rw [h1] at h; cases h; exact .badLeaf _ _ rfl h1
      | true =>
      rw [h1] at h
      simp only [Bool.not_true, Bool.false_eq_true, if_false] at h
      cases h2 : webAlgo alloc cv.scheme with
      | none =>
        rw [h2] at h
        cases h
        refine .unknownScheme _ _ rfl h1 fun algo hm he => ?_
        rw [webAlgo_iff.2 ⟨hm, he⟩] at h2
        cases h2
      | some algo =>
      rw [h2] at h
      simp only at h
      obtain ⟨h3, h4⟩ := webAlgo_iff.1 h2
      cases hv : W.verify algo leaf msg cv.signature with
      | true => rw [hv] at h; cases h
      | false => rw [hv] at h; cases h; exact .forged _ _ _ rfl h1 h3 h4 hv
    · rename_i hn
      cases h
      exact .noCertificate hn
  · intro h
    cases h with
    | noCertificate h =>
      unfold webCheckSignature
      split
      · exact absurd rfl (h _ _)
      · rfl
    | badLeaf leaf rest hl h => subst hl; simp only [webCheckSignature, h]; rfl
    | unknownScheme leaf rest hl hok h =>
      subst hl
      have : webAlgo alloc cv.scheme = none := by
        cases hc : webAlgo alloc cv.scheme with
        | none => rfl
        | some algo => have := webAlgo_iff.1 hc; exact absurd this.2 (h algo this.1)
      simp only [webCheckSignature, hok, this]; rfl
    | forged leaf rest algo hl hok ha he h =>
      subst hl
      simp only [webCheckSignature, hok, webAlgo_iff.2 ⟨ha, he⟩, h]; rfl

/-- **C100** After an accepted Certificate message, the error of the webpki verifier on the signature of the server is exactly
what is wrong with the signature, or `EncodeError` if the hash has more than 32 bytes. -/
theorem C100_webpki_signature (S : Suite) (alloc : Bool) (N : Nat) (tr : Bytes) (c : CertMsg) (v v' : PkiVerifier)
    (cv : CertVerify) (e : TlsError) (hc : (webOps W S alloc now N).verifyCertificate tr c v = (.ok (), v'))
    (hp : CertEntry.parseVector 16 ⟨c.rawEntries, 0⟩ = .ok c.entries) :
    ((webOps W S alloc now N).verifySignature cv v').1 = .err e ↔
      if (S.hash tr).length ≤ 32 then WebSignatureDefect W alloc c.entries (serverSignedContent S tr) cv e
      else e = .encodeError := by
  obtain ⟨-, rfl⟩ := webVerifyCertificate_ok hc
  simp only [webOps, webVerifySignature, M.get_bind, M.modify_bind]
  have hl : (serverSignedContent S tr).length ≤ 130 ↔ (S.hash tr).length ≤ 32 := by
    have : (ascii "TLS 1.3, server CertificateVerify").length = 33 := by decide
    simp only [serverSignedContent, List.length_append, List.length_replicate, this, List.length_cons, List.length_nil]
    omega
  rw [serverSigned_cases]
  by_cases hh : (S.hash tr).length ≤ 32
  · rw [if_pos (hl.2 hh), if_pos hh, M.lift_ok_bind, hp, M.lift_ok_bind, M.lift_apply, ← webSignature_defect]
  · rw [if_neg (fun h => hh (hl.1 h)), if_neg hh, M.lift_err_bind]
    exact ⟨fun h => by cases h; rfl, fun h => by rw [h]⟩

/-! ## Examples -/

/-- The native toy verifier on these certificates at a time. -/
def exVerdict (t N : Nat) (host : Option String) (certs : List Bytes) : Res TlsError Unit :=
  ((pkiOps toyPki toySuite allFeatures (some t) N).verifyCertificate [] (toyMsg certs) (toyVerifier host)).1

-- accepted; outside its period; not signed by the issuer; not a certificate; another host; no room
example : exVerdict 20 1000 "www.example.com" [toyLeaf, toyInter] = .ok () := by decide +kernel
example : exVerdict 51 1000 "www.example.com" [toyLeaf, toyInter] = .err .invalidCertificate := by decide +kernel
example : exVerdict 20 1000 "www.example.com" [toyLeaf] = .err .invalidCertificate := by decide +kernel
example : exVerdict 20 1000 "www.example.com" [toyLeaf, [1, 2, 3]] = .err .decodeError := by decide +kernel
example : exVerdict 20 1000 "example.org" [toyLeaf, toyInter] = .err .invalidCertificate := by decide +kernel
example : exVerdict 20 50 "www.example.com" [toyLeaf, toyInter] = .err .outOfMemory := by decide +kernel
-- the entry nearest to the CA decides
example : exVerdict 20 1000 "www.example.com" [[1, 2, 3], toyLeaf] = .err .invalidCertificate := by decide +kernel

-- all hypotheses of `C100_native_entry`: a leaf outside its period, below an intermediate in order
example : ((pkiOps toyPki toySuite allFeatures (some 51) 1000).verifyCertificate [] (toyMsg [exNames, toyInter])
    (toyVerifier "d.e")).1 = .err .invalidCertificate := by
  obtain ⟨dc, h1, h2, h3, h4⟩ := exNames_readable
  obtain ⟨r, hr⟩ : ∃ r, verifyChain toyPki allFeatures (some 51) (.x509 toyCa) [CertEntry.x509 toyInter].reverse ⟨none, []⟩ = .ok r :=
    ⟨⟨some (ascii "inter"), []⟩, by decide +kernel⟩
  obtain ⟨certs, e, hv⟩ := verifyChain_vouched hr
  have : certs = [toyInter] := by
    have : List.map CertEntry.x509 [toyInter] = List.map CertEntry.x509 certs := e
    exact ((List.map_inj_right (fun a b hab => by injection hab)).1 this).symm
  subst this
  obtain ⟨di, hdi⟩ : ∃ di, toyPki.fromDer toyInter = some di := ⟨_, rfl⟩
  have hk : di.publicKey = some [2] := by
    have : (toyPki.fromDer toyInter).map (·.publicKey) = some (some [2]) := by decide +kernel
    rw [hdi] at this
    simpa using this
  refine C100_native_entry toySuite 1000 [] _ _ _ (fun k hk => by simpa [toyPki] using hk) [] (.x509 exNames) [toyInter] rfl hv
    ?_ ?_ (.expired toyInter exNames [2] di dc hdi h1 hk ?_)
  · rintro cert dc' e1 e2
    injection e1 with e1
    subst e1
    rw [h1] at e2
    injection e2 with e2
    subst e2
    exact ⟨h2, _, h3, h4⟩
  · intro cert hc
    simp only [List.mem_cons, List.not_mem_nil, or_false] at hc
    subst hc
    rintro cert dc' e1 e2
    injection e1 with e1
    subst e1
    have hs : (toyPki.fromDer toyInter).map (fun d => (d.subject, d.extensions)) =
        some ([[⟨[2, 5, 4, 3], ascii "inter"⟩]], none) := by decide +kernel
    rw [e2] at hs
    simp only [Option.map_some, Option.some.injEq, Prod.mk.injEq] at hs
    refine ⟨?_, [], .absent (by intro xs hx; rw [hs.2] at hx; cases hx), by intro n hn; cases hn⟩
    intro rdn hrdn
    rw [hs.1] at hrdn
    simp only [List.mem_cons, List.not_mem_nil, or_false] at hrdn
    subst hrdn
    exact ⟨_, _, rfl, fun _ => by decide⟩
  · rintro ⟨dc', e1, e2⟩
    have hna : (toyPki.fromDer exNames).map (·.notAfter) = some 50 := by decide +kernel
    rw [e1] at hna
    simp only [Option.map_some, Option.some.injEq] at hna
    have := (e2 51 rfl).2
    omega

-- the signature: the right one, one by another key, one of the wrong length, an unknown scheme
example : (certThenSig (pkiOps toyPki toySuite allFeatures (some 20) 1000) [] (toyMsg [toyLeaf, toyInter])
    ⟨.ecdsaSecp256r1Sha256, mix 4 ([3] ++ serverSignedContent toySuite [])⟩ (toyVerifier "www.example.com")).2 = .ok () := by
  decide +kernel
example : (certThenSig (pkiOps toyPki toySuite allFeatures (some 20) 1000) [] (toyMsg [toyLeaf, toyInter])
    ⟨.ecdsaSecp256r1Sha256, mix 4 ([4] ++ serverSignedContent toySuite [])⟩ (toyVerifier "www.example.com")).2 =
    .err .invalidSignature := by decide +kernel
example : (certThenSig (pkiOps toyPki toySuite allFeatures (some 20) 1000) [] (toyMsg [toyLeaf, toyInter])
    ⟨.ecdsaSecp256r1Sha256, [1]⟩ (toyVerifier "www.example.com")).2 = .err .decodeError := by decide +kernel
example : (certThenSig (pkiOps toyPki toySuite allFeatures (some 20) 1000) [] (toyMsg [toyLeaf, toyInter])
    ⟨.rsaPkcs1Sha256, [1]⟩ (toyVerifier "www.example.com")).2 = .err .invalidSignatureScheme := by decide +kernel

end ETls
