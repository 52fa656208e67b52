import Verif.Props.PkiComplete

/-! Which names a leaf certificate can have when no server name is configured (C65): no DNS name whatsoever, and no
common name that the library reads. -/

namespace ETls
open Spec

variable {L : PkiLib} {F : Features}

theorem sanLoop_keeps {fuel : Nat} {b : Bytes} {names r : List Bytes} (h : sanLoop L fuel b names = .ok r)
    (hn : names ≠ []) : r ≠ [] := by
  induction fuel generalizing b names with
  | zero => cases h
  | succ fuel ih =>
    cases b with
    | nil => simp only [sanLoop, Res.ok.injEq] at h; exact h ▸ hn
    | cons tag t =>
      simp only [sanLoop] at h
      cases hh : L.header (tag :: t) with
      | none => rw [hh] at h; cases h
      | some hd =>
        obtain ⟨k, n⟩ := hd
        rw [hh] at h
        simp only [] at h
        cases hs : derSlice n ((tag :: t).drop k) with
        | none => rw [hs] at h; cases h
        | some vr =>
          obtain ⟨value, rest⟩ := vr
          rw [hs] at h
          simp only [] at h
          split at h
          · split at h
            · have hne : (if names.length < 3 then names ++ [value] else names) ≠ [] := by
                split
                · simp
                · exact hn
              generalize (if names.length < 3 then names ++ [value] else names) = ns at h hne
              split at h
              · simp only [Res.ok.injEq] at h; exact h ▸ hne
              · exact ih h hne
            · cases h
          · exact ih h hn

/-- A DNS name anywhere among the GeneralNames leaves the reader with at least one name, unless it fails. -/
theorem sanLoop_dns {name b : Bytes} (hd : HasDns L name b) : ∀ {fuel : Nat} {names r : List Bytes},
    sanLoop L fuel b names = .ok r → r ≠ [] := by
  induction hd with
  | here hd rest hh ht =>
    intro fuel names r h
    cases fuel with
    | zero => cases h
    | succ fuel =>
      cases hd with
      | nil => cases ht
      | cons x xs =>
        simp only [List.head?_cons, Option.some.injEq] at ht
        subst ht
        have e : derSlice name.length ((0x82 :: xs ++ name ++ rest).drop (0x82 :: xs).length) = some (name, rest) := by
          simp [derSlice]
        simp only [List.cons_append, sanLoop] at h hh e
        rw [hh] at h
        simp only [] at h
        rw [e] at h
        simp only [if_true] at h
        split at h
        · have hne : (if names.length < 3 then names ++ [name] else names) ≠ [] := by
            split
            · simp
            · intro hn; subst hn; simp at *
          generalize (if names.length < 3 then names ++ [name] else names) = ns at h hne
          split at h
          · simp only [Res.ok.injEq] at h; exact h ▸ hne
          · exact sanLoop_keeps h hne
        · cases h
  | later hd value rest hh hr ih =>
    intro fuel names r h
    cases fuel with
    | zero => cases h
    | succ fuel =>
      cases hb : hd ++ value ++ rest with
      | nil =>
        have : rest = [] := by simp_all
        subst this
        rw [hb] at h
        simp only [sanLoop, Res.ok.injEq] at h
        subst h
        exact ih (fuel := 1) rfl
      | cons tag t =>
        have e : derSlice value.length ((tag :: t).drop hd.length) = some (value, rest) := by
          rw [← hb]; simp [derSlice]
        rw [hb] at h hh
        simp only [sanLoop] at h
        rw [hh] at h
        simp only [] at h
        rw [e] at h
        simp only [] at h
        split at h
        · split at h
          · generalize (if names.length < 3 then names ++ [value] else names) = ns at h
            split at h
            · rename_i h3
              simp only [Res.ok.injEq] at h
              intro h0
              rw [h0] at h
              rw [h] at h3
              simp at h3
            · exact ih h
          · cases h
        · exact ih h

theorem sanExtensions_keeps {xs : List CertExt} : ∀ {names r : List Bytes}, sanExtensions L xs names = .ok r →
    names ≠ [] → r ≠ [] := by
  induction xs with
  | nil => intro names r h hn; simp only [sanExtensions, Res.ok.injEq] at h; exact h ▸ hn
  | cons e es ih =>
    intro names r h hn
    simp only [sanExtensions] at h
    split at h
    · exact ih h hn
    · split at h
      · rename_i ns hs
        refine ih h ?_
        unfold extractSan at hs
        split at hs
        · cases hs
        split at hs
        · cases hs
        split at hs
        · cases hs
        split at hs
        · cases hs
        exact sanLoop_keeps hs hn
      · cases h
      · cases h

theorem sanExtensions_dns {xs : List CertExt} {e : CertExt} {hd content rest name : Bytes} (he : e ∈ xs)
    (hid : e.id = [2, 5, 29, 17]) (hv : e.value = hd ++ content ++ rest)
    (hh : L.header e.value = some (hd.length, content.length)) (hdns : HasDns L name content) :
    ∀ {names r : List Bytes}, sanExtensions L xs names = .ok r → r ≠ [] := by
  induction xs with
  | nil => cases he
  | cons x es ih =>
    intro names r h
    simp only [sanExtensions] at h
    rcases List.mem_cons.mp he with rfl | he
    · rw [if_neg (by simp [oidSubjectAltName, hid])] at h
      split at h
      · rename_i ns hs
        refine sanExtensions_keeps h ?_
        unfold extractSan at hs
        split at hs
        · cases hs
        rw [hh] at hs
        simp only [] at hs
        split at hs
        · cases hs
        rw [hv] at hs
        have e' : derSlice content.length ((hd ++ content ++ rest).drop hd.length) = some (content, rest) := by
          simp [derSlice]
        rw [e'] at hs
        exact sanLoop_dns hdns hs
      · cases h
      · cases h
    · split at h
      · exact ih he h
      · split at h
        · exact ih he h
        · cases h
        · cases h

/-- If the reader of the subject ends without a name, the last common name that stands first in its element (if any) is
not UTF-8. -/
theorem extractCommonName_unread {pre post : List (List Attr)} {a : Attr} {as : List Attr} (ha : a.oid = [2, 5, 4, 3])
    (hp : ∀ rdn ∈ post, ∀ b bs, rdn = b :: bs → b.oid ≠ [2, 5, 4, 3]) : ∀ {cn : Option Bytes},
    extractCommonName L (pre ++ (a :: as) :: post) cn = .ok none → L.utf8 a.value = false := by
  have tail : ∀ {post : List (List Attr)}, (∀ rdn ∈ post, ∀ b bs, rdn = b :: bs → b.oid ≠ [2, 5, 4, 3]) →
      ∀ {cn r : Option Bytes}, extractCommonName L post cn = .ok r → r = cn := by
    intro post
    induction post with
    | nil => intro _ cn r h; simp only [extractCommonName, Res.ok.injEq] at h; exact h.symm
    | cons x xs ih =>
      intro hp cn r h
      cases x with
      | nil => cases h
      | cons b bs =>
        simp only [extractCommonName] at h
        rw [if_neg (by simpa [oidCommonName] using hp _ List.mem_cons_self b bs rfl)] at h
        exact ih (fun rdn hr => hp rdn (List.mem_cons_of_mem _ hr)) h
  induction pre with
  | nil =>
    intro cn h
    simp only [List.nil_append, extractCommonName] at h
    rw [if_pos (by simpa [oidCommonName] using ha)] at h
    split at h
    · have := tail hp h
      cases hu : L.utf8 a.value with
      | true => rw [hu] at this; simp at this
      | false => rfl
    · cases h
  | cons x xs ih =>
    intro cn h
    cases x with
    | nil => cases h
    | cons b bs =>
      simp only [List.cons_append, extractCommonName] at h
      split at h
      · split at h
        · exact ih h
        · cases h
      · exact ih h

/-- **C65, DNS names** Without a server name, a non-empty list is accepted only if the leaf has no DNS name at all: whatever
its length or characters, in whatever subjectAltName extension it stands. -/
theorem C65_no_dns_name (S : Suite) (now : Option Nat) (N : Nat) (tr : Bytes) (c : CertMsg) (v v' : PkiVerifier)
    (h : (pkiOps L S F now N).verifyCertificate tr c v = (.ok (), v')) (hn : v.host = none) (leaf : Bytes)
    (rest : List CertEntry) (hc : c.entries = .x509 leaf :: rest) (dc : DecodedCert) (hd : L.fromDer leaf = some dc) :
    ∀ name, ¬ DnsNameOf L dc name := by
  obtain ⟨r, h1, h2, -⟩ := pkiVerifyCertificate_ok h
  obtain ⟨certs, k1, -, -, k2⟩ := verifyChain_ok h1
  rw [hc] at k1
  cases certs with
  | nil => cases k1
  | cons x xs =>
    simp only [List.map_cons, List.cons.injEq, CertEntry.x509.injEq] at k1
    obtain ⟨dc', m1, -, -, m2, m3⟩ := k2 x xs rfl
    rw [← k1.1, hd] at m1
    injection m1 with m1
    subst m1
    rw [hn] at h2
    simp only [hostnameMatch, Bool.and_eq_true, Option.isNone_iff_eq_none, List.isEmpty_iff] at h2
    intro name hname
    obtain ⟨xs, e, hd', content, rest', g1, g2, g3, g4, g5, g6, g7, g8⟩ := hname
    unfold extractSanDnsNames at m3
    rw [g1] at m3
    exact sanExtensions_dns g2 g3 g5 g6 g8 m3 h2.2

/-- **C65, common names (in part)** Without a server name, a non-empty list is accepted only if the leaf has no common name
the library reads: the last element of the subject that begins with a common name, if there is one, holds one that is not
UTF-8.  Missing: the others, see `C65_refuted`. -/
theorem C65_common_name_partial (S : Suite) (now : Option Nat) (N : Nat) (tr : Bytes) (c : CertMsg) (v v' : PkiVerifier)
    (h : (pkiOps L S F now N).verifyCertificate tr c v = (.ok (), v')) (hn : v.host = none) (leaf : Bytes)
    (rest : List CertEntry) (hc : c.entries = .x509 leaf :: rest) (dc : DecodedCert) (hd : L.fromDer leaf = some dc)
    (pre post : List (List Attr)) (a : Attr) (as : List Attr) (hs : dc.subject = pre ++ (a :: as) :: post)
    (ha : a.oid = [2, 5, 4, 3]) (hp : ∀ rdn ∈ post, ∀ b bs, rdn = b :: bs → b.oid ≠ [2, 5, 4, 3]) :
    L.utf8 a.value = false := by
  obtain ⟨r, h1, h2, -⟩ := pkiVerifyCertificate_ok h
  obtain ⟨certs, k1, -, -, k2⟩ := verifyChain_ok h1
  rw [hc] at k1
  cases certs with
  | nil => cases k1
  | cons x xs =>
    simp only [List.map_cons, List.cons.injEq, CertEntry.x509.injEq] at k1
    obtain ⟨dc', m1, -, -, m2, m3⟩ := k2 x xs rfl
    rw [← k1.1, hd] at m1
    injection m1 with m1
    subst m1
    rw [hn] at h2
    simp only [hostnameMatch, Bool.and_eq_true, Option.isNone_iff_eq_none, List.isEmpty_iff] at h2
    rw [h2.1, hs] at m2
    exact extractCommonName_unread ha hp m2

/-- **C65, refuted** Without a server name, a leaf whose common name is not UTF-8 is accepted. -/
theorem C65_refuted : ∃ (L : PkiLib) (c : CertMsg) (leaf : Bytes) (dc : DecodedCert) (v : PkiVerifier) (name : Bytes),
    c.entries = [.x509 leaf] ∧ L.fromDer leaf = some dc ∧ v.host = none ∧ CommonNameOf dc name ∧
    ((pkiOps L toySuite allFeatures (some 20) 1000).verifyCertificate [] c v).1 = .ok () :=
  ⟨toyPki, toyMsg [toyCert 1 3 10 50 "é" []], toyCert 1 3 10 50 "é" [], _, toyVerifier none, [233], rfl, rfl, rfl,
    ⟨_, List.mem_cons_self, _, List.mem_cons_self, by decide +kernel, by decide +kernel⟩, by decide +kernel⟩

-- a leaf without names is accepted; one with a name the library cannot read is refused, in either place
example : ((pkiOps toyPki toySuite allFeatures (some 20) 1000).verifyCertificate [] (toyMsg [toyCert 1 3 10 50 "" []])
    (toyVerifier none)).1 = .ok () := by decide +kernel
example : ((pkiOps toyPki toySuite allFeatures (some 20) 1000).verifyCertificate [] (toyMsg [toyCert 1 3 10 50 "" ["é"]])
    (toyVerifier none)).1 ≠ .ok () := by decide +kernel

end ETls
