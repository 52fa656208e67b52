import Verif.Proofs.Reads
import Verif.Model.RecordReader
import Mathlib.Data.List.Forall2
import Mathlib.Tactic.Tauto

/-! # C01 (hostile input), C05 (extensions), C09 (handshake length), C55 (server messages) -/

namespace ETls
open Spec

variable (S : Suite)

/-! ## C01 -/

/-- **C01** the handshake decoder, from every position of every byte string: it does not panic (the model makes every
out-of-range access and every exhausted loop bound a panic), leaves the position inside the string and not before
where it was, and a decoded message has consumed at least four bytes. -/
theorem C01_handshake (p : PB) (tr : Bytes) (hp : p.pos ≤ p.buffer.length) :
    (ServerHs.read S (p, tr)).1 ≠ .panic ∧
    (ServerHs.read S (p, tr)).2.1.buffer = p.buffer ∧
    p.pos ≤ (ServerHs.read S (p, tr)).2.1.pos ∧
    (ServerHs.read S (p, tr)).2.1.pos ≤ p.buffer.length ∧
    ∀ h, (ServerHs.read S (p, tr)).1 = .ok h → p.pos + 4 ≤ (ServerHs.read S (p, tr)).2.1.pos := by
  obtain ⟨h1, h2, h3, h4, h5⟩ := serverHsParse_good S p hp
  unfold ServerHs.read
  rcases hm : ServerHs.parse S p with ⟨r, p'⟩
  rw [hm] at h1 h2 h3 h4 h5
  simp only [PB.Valid] at h2 h3 h4 h5
  rw [h2] at h4
  simp only [hm]
  cases r with
  | ok h => exact ⟨by simp, h2, h3, h4, fun _ _ => (h5 h rfl).2⟩
  | err e => exact ⟨by simp, h2, h3, h4, by simp⟩
  | panic => exact absurd rfl h1

example : (ServerHs.read S (⟨[8, 0, 0, 2, 0, 0, 77], 0⟩, [1])).1 = .ok .encryptedExtensions ∧
    (ServerHs.read S (⟨[8, 0, 0, 2, 0, 0, 77], 0⟩, [1])).2 = (⟨[8, 0, 0, 2, 0, 0, 77], 6⟩, [1, 8, 0, 0, 2, 0, 0]) :=
  ⟨rfl, rfl⟩

/-- **C01** the body of a plaintext record of any content type. -/
theorem C01_plaintext_record (h : RecordHeader) (start : Nat) (data tr : Bytes)
    (hl : h.contentLength = data.length) : (ServerRecord.decode S h start data tr).1 ≠ .panic := by
  unfold ServerRecord.decode
  rw [if_neg (by simp [hl])]
  cases h.contentType with
  | invalid => simp
  | changeCipherSpec =>
    simp only [changeCipherSpecRead]
    show (Res.ok _, _).1 ≠ _
    simp
  | alert =>
    simp only
    obtain ⟨h1, _⟩ := alertParse_good (PB.new data) (PB.new_valid _)
    cases hm : (Alert.parse (PB.new data)).1 with
    | panic => exact absurd hm h1
    | ok a => simp [Res.map]
    | err e => simp [Res.map]
  | handshake =>
    obtain ⟨h1, _⟩ := C01_handshake S (PB.new data) tr (Nat.zero_le _)
    rcases hm : ServerHs.read S (PB.new data, tr) with ⟨r, s⟩
    rw [hm] at h1
    cases r with
    | panic => exact absurd rfl h1
    | ok a => simp [hm, Res.map]
    | err e => simp [hm, Res.map]
  | applicationData => simp

/-- The five header bytes never crash the header decoder. -/
theorem C01_header (h : Bytes) (hl : h.length = 5) : RecordHeader.decode h ≠ .panic := by
  match h, hl with
  | [a, b, c, d, e], _ =>
    unfold RecordHeader.decode
    simp only
    split <;> simp

/-- The loop over coalesced messages, from every position. -/
theorem handshakeLoop_np {τ : Type} (cb : ServerRecord → M TlsError (ReadKS × τ) Unit)
    (hcb : ∀ h s, (cb (.handshake h) s).1 ≠ .panic) (fuel : Nat) :
    ∀ (p : PB) (k : ReadKS) (t : τ), p.pos ≤ p.buffer.length → p.buffer.length - p.pos < fuel →
      (handshakeLoop S cb fuel p (k, t)).1 ≠ .panic := by
  induction fuel with
  | zero => intro p k t _ h; omega
  | succ f ih =>
    intro p k t hp hf
    unfold handshakeLoop
    simp only
    by_cases hrem : p.buffer.length - p.pos > 0
    · rw [if_pos hrem]
      obtain ⟨h1, h2, h3, h4, h5⟩ := C01_handshake S p k.transcript hp
      rcases hm : ServerHs.read S (p, k.transcript) with ⟨r, p', tr⟩
      rw [hm] at h1 h2 h3 h4 h5
      cases r with
      | panic => exact absurd rfl h1
      | err e => simp
      | ok h =>
        simp only at h2 h3 h4 ⊢
        have h6 := h5 h rfl
        simp only at h6
        have hc := hcb h ({ k with transcript := tr }, t)
        rcases hcm : cb (.handshake h) ({ k with transcript := tr }, t) with ⟨r, k', t'⟩
        rw [hcm] at hc
        cases r with
        | panic => exact absurd rfl hc
        | err e => simp
        | ok u => exact ih p' k' t' (by rw [h2]; exact h4) (by rw [h2]; omega)
    · rw [if_neg hrem]; simp

/-- **C01** the decrypted body of a handshake record: a non-empty inner plaintext whose content type is handshake
is decoded message by message without panic, as long as the code that receives the messages does not panic. -/
theorem C01_decrypted_handshake {τ : Type} (cb : ServerRecord → M TlsError (ReadKS × τ) Unit)
    (hcb : ∀ r s, (cb r s).1 ≠ .panic) (header : Bytes) (start : Nat) (pt : Bytes) (hne : pt ≠ [])
    (s : ReadKS × τ) : (dispatchInner S cb header start pt s).1 ≠ .panic := by
  unfold dispatchInner
  have hsn : stripPadding pt ≠ [] := by
    unfold stripPadding
    split
    · exact hne
    · rename_i h
      intro hr
      exact h (List.reverse_eq_nil_iff.mp hr)
  cases hgl : (stripPadding pt).getLast? with
  | none => exact absurd (List.getLast?_eq_none_iff.mp hgl) hsn
  | some b =>
    simp only
    cases ContentType.of b.toNat with
    | none => simp
    | some ct =>
      cases ct with
      | handshake =>
        exact handshakeLoop_np S cb (fun h s => hcb _ s) _ _ s.1 s.2 (Nat.zero_le _) (by simp [PB.new])
      | applicationData => exact hcb _ s
      | alert =>
        obtain ⟨h1, _⟩ := alertParse_good (PB.new (stripPadding pt).dropLast) (PB.new_valid _)
        simp only
        cases hm : (Alert.parse (PB.new (stripPadding pt).dropLast)).1 with
        | panic => exact absurd hm h1
        | ok a =>
          rw [M.lift_ok_bind]
          exact hcb _ s
        | err e => rw [M.lift_err_bind]; simp
      | invalid => simp
      | changeCipherSpec => simp

example : (dispatchInner (τ := List ServerRecord) S (fun r (k, l) => (.ok (), (k, l ++ [r]))) [] 0
    ([8, 0, 0, 2, 0, 0] ++ [8, 0, 0, 2, 0, 0] ++ [22, 0, 0]) (⟨KsState.new S, []⟩, [])).2.2 =
    [.handshake .encryptedExtensions, .handshake .encryptedExtensions] := rfl

/-! ## C05 -/

/-- The extension group the library uses for a message. -/
def groupOf : ExtMsg → ExtGroup
  | .serverHello => serverHelloGroup
  | .encryptedExtensions => encryptedExtensionsGroup
  | .certificateRequest => certificateRequestGroup
  | .certificate => certificateGroup
  | .newSessionTicket => newSessionTicketGroup

/-- The library accepts in each message exactly the extension types RFC 8446 permits there. -/
theorem C05_permitted (m : ExtMsg) (t : ExtensionType) : (groupOf m t).isSome ↔ t ∈ permitted m := by
  cases m <;> cases t <;> decide

/-- A type number unknown to the extension table. -/
def UnknownType (n : Nat) : Prop := ∀ t, (t, n) ∉ extensionTypes

theorem extStep_unknown (g : ExtGroup) (u : RawExt) (h : UnknownType u.ty) :
    extStep g u = .err .unknownExtensionType := by
  unfold extStep
  rw [C04_extension_type.reject _ h]

theorem extSpec_skip (g : ExtGroup) (cap : Nat) (u : RawExt) (h : UnknownType u.ty) (xs ys : List RawExt) :
    ∀ acc, extSpec g cap acc (xs ++ u :: ys) = extSpec g cap acc (xs ++ ys) := by
  induction xs with
  | nil =>
    intro acc
    simp only [List.nil_append, extSpec]
    rw [extStep_unknown g u h]
  | cons x xs ih =>
    intro acc
    simp only [List.cons_append, extSpec]
    cases extStep g x with
    | ok e => simp only [ih]
    | err e => cases e <;> simp only [ih]
    | panic => rfl

/-- **C05** an extension of unknown type, with any content and at any place of the list, changes nothing: the list
decodes to the same result (in every context `A`, `B` of surrounding bytes, for every message and list capacity). -/
theorem C05_unknown_ignored (m : ExtMsg) (cap : Nat) (xs ys : List RawExt) (u : RawExt) (hu : UnknownType u.ty)
    (hs : ExtsSized (xs ++ u :: ys)) (A B : Bytes) :
    (extParseVector (groupOf m) cap ⟨A ++ (extVec (xs ++ u :: ys) ++ B), A.length⟩).1 =
      (extParseVector (groupOf m) cap ⟨A ++ (extVec (xs ++ ys) ++ B), A.length⟩).1 := by
  have hs' : ExtsSized (xs ++ ys) := by
    refine ⟨fun e he => hs.1 e ?_, ?_⟩
    · simp only [List.mem_append, List.mem_cons] at he ⊢; tauto
    · have := hs.2
      simp only [List.flatMap_append, List.flatMap_cons, List.length_append] at this ⊢
      omega
  rw [(extParseVector_reads _ cap _ hs A B).1, (extParseVector_reads _ cap _ hs' A B).1, extSpec_skip _ _ u hu]

theorem extSpec_prefix (g : ExtGroup) (cap : Nat) (xs ys : List RawExt) :
    ∀ acc acc', extSpec g cap acc xs = .ok acc' → extSpec g cap acc (xs ++ ys) = extSpec g cap acc' ys := by
  induction xs with
  | nil => intro acc acc' h; simp only [extSpec, Res.ok.injEq] at h; subst h; rfl
  | cons x xs ih =>
    intro acc acc' h
    simp only [List.cons_append, extSpec] at h ⊢
    cases hx : extStep g x with
    | ok e =>
      rw [hx] at h
      simp only at h ⊢
      split at h
      · rename_i hc; rw [if_pos hc]; exact ih _ _ h
      · cases h
    | err e =>
      rw [hx] at h
      cases e <;> first | exact ih _ _ h | cases h
    | panic => rw [hx] at h; cases h

theorem extSpec_bad (g : ExtGroup) (cap : Nat) (xs : List RawExt) (x : RawExt) (ys : List RawExt)
    (hx : extStep g x = .err (.abortHandshake .fatal .illegalParameter)) :
    ∀ acc l, extSpec g cap acc (xs ++ x :: ys) ≠ .ok l := by
  induction xs with
  | nil => intro acc l; simp only [List.nil_append, extSpec, hx]; simp
  | cons y xs ih =>
    intro acc l
    simp only [List.cons_append, extSpec]
    cases extStep g y with
    | ok e =>
      simp only
      split
      · exact ih _ _
      · simp
    | err e => cases e <;> first | exact ih _ _ | simp
    | panic => simp

/-- **C05** an extension of known type that the message may not carry: if what precedes it is a well-formed list of
extensions that decodes, decoding fails with the fatal `illegal_parameter` abort; in any case it fails. -/
theorem C05_forbidden_aborts (m : ExtMsg) (cap : Nat) (xs ys : List RawExt) (x : RawExt) (t : ExtensionType)
    (hk : (t, x.ty) ∈ extensionTypes) (hf : t ∉ permitted m) (hs : ExtsSized (xs ++ x :: ys)) (A B A' B' : Bytes) :
    (∀ l, (extParseVector (groupOf m) cap ⟨A ++ (extVec (xs ++ x :: ys) ++ B), A.length⟩).1 ≠ .ok l) ∧
    (∀ l, (extParseVector (groupOf m) cap ⟨A' ++ (extVec xs ++ B'), A'.length⟩).1 = .ok l →
      (extParseVector (groupOf m) cap ⟨A ++ (extVec (xs ++ x :: ys) ++ B), A.length⟩).1 =
        .err (.abortHandshake .fatal .illegalParameter)) := by
  have hstep : extStep (groupOf m) x = .err (.abortHandshake .fatal .illegalParameter) := by
    unfold extStep
    rw [C04_extension_type.accept _ _ hk]
    have : groupOf m t = none := by
      cases h : groupOf m t with
      | none => rfl
      | some p => exact absurd ((C05_permitted m t).mp (by rw [h]; rfl)) hf
    simp only [this]
  have hs' : ExtsSized xs := by
    refine ⟨fun e he => hs.1 e ?_, ?_⟩
    · simp only [List.mem_append]; exact Or.inl he
    · have := hs.2
      simp only [List.flatMap_append, List.length_append] at this
      omega
  constructor
  · intro l
    rw [(extParseVector_reads _ cap _ hs A B).1]
    exact extSpec_bad _ _ _ _ _ hstep _ _
  · intro l hl
    rw [(extParseVector_reads _ cap _ hs' A' B').1] at hl
    rw [(extParseVector_reads _ cap _ hs A B).1, extSpec_prefix _ _ _ _ _ _ hl]
    simp only [extSpec, hstep]

example : UnknownType 0x3a3a := by intro t h; revert h; cases t <;> decide
example : ((extParseVector serverHelloGroup 4 (PB.new (extVec [⟨43, [3, 4]⟩, ⟨0x3a3a, [1]⟩]))).1) =
    .ok [⟨.supportedVersions, .supportedVersionsSH 0x0304⟩] := by decide
example : ((extParseVector serverHelloGroup 4 (PB.new (extVec [⟨43, [3, 4]⟩, ⟨0, []⟩]))).1) =
    .err (.abortHandshake .fatal .illegalParameter) := by decide

/-- **C05** for a whole message: inserting an unknown extension into the ServerHello, EncryptedExtensions,
CertificateRequest or NewSessionTicket leaves the decoded message unchanged. -/
theorem C05_message (u : RawExt) (hu : UnknownType u.ty) (xs ys : List RawExt) (mk : List RawExt → RawMsg)
    (hmk : (∃ v r sid cs comp, mk = fun l => .serverHello v r sid cs comp l) ∨ (mk = fun l => .encryptedExtensions l) ∨
      (∃ ctx, mk = fun l => .certificateRequest ctx l) ∨ (∃ a b n t, mk = fun l => .newSessionTicket a b n t l))
    (hw : (mk (xs ++ u :: ys)).WellSized S.hashLen) (hw' : (mk (xs ++ ys)).WellSized S.hashLen)
    (hb : (mk (xs ++ u :: ys)).body.length < 16777216) (hb' : (mk (xs ++ ys)).body.length < 16777216) (B B' : Bytes) :
    (ServerHs.parse S (PB.new ((mk (xs ++ u :: ys)).bytes ++ B))).1 =
      (ServerHs.parse S (PB.new ((mk (xs ++ ys)).bytes ++ B'))).1 := by
  have h1 := (serverHsParse_reads S _ hw hb [] B).1
  have h2 := (serverHsParse_reads S _ hw' hb' [] B').1
  simp only [List.nil_append, List.length_nil] at h1 h2
  unfold PB.new
  rw [h1, h2]
  rcases hmk with ⟨v, r, sid, cs, comp, rfl⟩ | rfl | ⟨ctx, rfl⟩ | ⟨a, b, n, t, rfl⟩ <;>
    simp only [decoded, extSpec_skip _ _ u hu]

/-- The ways a message carries a list of extensions of the kind `m`: RFC 8446 sections 4.1.3, 4.3.1, 4.3.2, 4.4.2 (in any entry of
the Certificate) and 4.6.1. -/
inductive CarriesExts : ExtMsg → (List RawExt → RawMsg) → Prop where
  | serverHello (v : Nat) (r sid : Bytes) (cs : Nat) (comp : UInt8) : CarriesExts .serverHello fun l => .serverHello v r sid cs comp l
  | encryptedExtensions : CarriesExts .encryptedExtensions fun l => .encryptedExtensions l
  | certificateRequest (ctx : Bytes) : CarriesExts .certificateRequest fun l => .certificateRequest ctx l
  | newSessionTicket (a b : Nat) (n t : Bytes) : CarriesExts .newSessionTicket fun l => .newSessionTicket a b n t l
  | certificate (ctx cert : Bytes) (es es' : List (Bytes × List RawExt)) :
      CarriesExts .certificate fun l => .certificate ctx (es ++ (cert, l) :: es')

theorem certSpec_skip (cap : Nat) (cert : Bytes) (xs ys : List RawExt) (u : RawExt) (hu : UnknownType u.ty)
    (es es' : List (Bytes × List RawExt)) :
    ∀ acc, certSpec cap acc (es ++ (cert, xs ++ u :: ys) :: es') = certSpec cap acc (es ++ (cert, xs ++ ys) :: es') := by
  induction es with
  | nil => intro acc; simp only [List.nil_append, certSpec, extSpec_skip _ _ u hu]
  | cons e es ih => intro acc; simp only [List.cons_append, certSpec, ih]

/-- **C05** for a Certificate: an unknown extension in any entry changes neither the outcome nor the context and the
certificates that are decoded. -/
theorem C05_certificate (u : RawExt) (hu : UnknownType u.ty) (xs ys : List RawExt) (ctx cert : Bytes)
    (es es' : List (Bytes × List RawExt))
    (hw : (RawMsg.certificate ctx (es ++ (cert, xs ++ u :: ys) :: es')).WellSized S.hashLen)
    (hw' : (RawMsg.certificate ctx (es ++ (cert, xs ++ ys) :: es')).WellSized S.hashLen)
    (hb : (RawMsg.certificate ctx (es ++ (cert, xs ++ u :: ys) :: es')).body.length < 16777216)
    (hb' : (RawMsg.certificate ctx (es ++ (cert, xs ++ ys) :: es')).body.length < 16777216) (B B' : Bytes) :
    ∃ r : Res TlsError (List CertEntry),
      (ServerHs.parse S (PB.new ((RawMsg.certificate ctx (es ++ (cert, xs ++ u :: ys) :: es')).bytes ++ B))).1 =
        r.map (fun certs => .certificate ⟨(es ++ (cert, xs ++ u :: ys) :: es').flatMap certEntryBytes, ctx, certs⟩) ∧
      (ServerHs.parse S (PB.new ((RawMsg.certificate ctx (es ++ (cert, xs ++ ys) :: es')).bytes ++ B'))).1 =
        r.map (fun certs => .certificate ⟨(es ++ (cert, xs ++ ys) :: es').flatMap certEntryBytes, ctx, certs⟩) := by
  have h1 := (serverHsParse_reads S _ hw hb [] B).1
  have h2 := (serverHsParse_reads S _ hw' hb' [] B').1
  simp only [List.nil_append, List.length_nil] at h1 h2
  refine ⟨certSpec 16 [] (es ++ (cert, xs ++ ys) :: es'), ?_, ?_⟩
  · unfold PB.new
    rw [h1]
    simp only [decoded, certSpec_skip _ _ _ _ u hu]
  · unfold PB.new
    rw [h2]
    simp only [decoded]

theorem certSpec_bad (cap : Nat) (cert : Bytes) (l : List RawExt) (h : ∀ r, extSpec certificateGroup 2 [] l ≠ .ok r)
    (es es' : List (Bytes × List RawExt)) : ∀ acc r, certSpec cap acc (es ++ (cert, l) :: es') ≠ .ok r := by
  induction es with
  | nil =>
    intro acc r
    simp only [List.nil_append, certSpec]
    cases hx : extSpec certificateGroup 2 [] l with
    | ok y => exact absurd hx (h y)
    | err e => simp
    | panic => simp
  | cons e es ih =>
    intro acc r
    simp only [List.cons_append, certSpec]
    cases extSpec certificateGroup 2 [] e.2 with
    | ok y =>
      simp only
      split
      · exact ih _ _
      · simp
    | err e => simp
    | panic => simp

theorem certSpec_abort (cap : Nat) (cert : Bytes) (l l' : List RawExt) {e : TlsError}
    (h : ∀ r, extSpec certificateGroup 2 [] l = .ok r → extSpec certificateGroup 2 [] l' = .err e)
    (es es' : List (Bytes × List RawExt)) :
    ∀ acc r, certSpec cap acc (es ++ (cert, l) :: es') = .ok r → certSpec cap acc (es ++ (cert, l') :: es') = .err e := by
  induction es with
  | nil =>
    intro acc r hr
    simp only [List.nil_append, certSpec] at hr ⊢
    cases hx : extSpec certificateGroup 2 [] l with
    | ok y => rw [h y hx]
    | err e => rw [hx] at hr; cases hr
    | panic => rw [hx] at hr; cases hr
  | cons x es ih =>
    intro acc r hr
    simp only [List.cons_append, certSpec] at hr ⊢
    cases hx : extSpec certificateGroup 2 [] x.2 with
    | ok y =>
      rw [hx] at hr
      simp only at hr ⊢
      split at hr
      · rename_i hc; rw [if_pos hc]; exact ih _ _ hr
      · cases hr
    | err e => rw [hx] at hr; cases hr
    | panic => rw [hx] at hr; cases hr

/-- **C05** for a whole message: an extension of known type that the message may not carry is never accepted, and if the
message without it and what follows it decodes, then with it decoding fails with the fatal `illegal_parameter` abort. -/
theorem C05_message_forbidden {m : ExtMsg} {mk : List RawExt → RawMsg} (hmk : CarriesExts m mk) (xs ys : List RawExt) (x : RawExt)
    (t : ExtensionType) (hk : (t, x.ty) ∈ extensionTypes) (hf : t ∉ permitted m)
    (hw : (mk (xs ++ x :: ys)).WellSized S.hashLen) (hw' : (mk xs).WellSized S.hashLen)
    (hb : (mk (xs ++ x :: ys)).body.length < 16777216) (hb' : (mk xs).body.length < 16777216) (B B' : Bytes) :
    (∀ h, (ServerHs.parse S (PB.new ((mk (xs ++ x :: ys)).bytes ++ B))).1 ≠ .ok h) ∧
    ∀ h, (ServerHs.parse S (PB.new ((mk xs).bytes ++ B'))).1 = .ok h →
      (ServerHs.parse S (PB.new ((mk (xs ++ x :: ys)).bytes ++ B))).1 = .err (.abortHandshake .fatal .illegalParameter) := by
  have hstep : extStep (groupOf m) x = .err (.abortHandshake .fatal .illegalParameter) := by
    unfold extStep
    rw [C04_extension_type.accept _ _ hk]
    have : groupOf m t = none := by
      cases h : groupOf m t with
      | none => rfl
      | some p => exact absurd ((C05_permitted m t).mp (by rw [h]; rfl)) hf
    simp only [this]
  have h1 := (serverHsParse_reads S _ hw hb [] B).1
  have h2 := (serverHsParse_reads S _ hw' hb' [] B').1
  simp only [List.nil_append, List.length_nil] at h1 h2
  unfold PB.new
  rw [h1, h2]
  have bad : ∀ cap l, extSpec (groupOf m) cap [] (xs ++ x :: ys) ≠ .ok l := fun cap => extSpec_bad _ cap xs x ys hstep []
  have ab : ∀ cap l, extSpec (groupOf m) cap [] xs = .ok l →
      extSpec (groupOf m) cap [] (xs ++ x :: ys) = .err (.abortHandshake .fatal .illegalParameter) := by
    intro cap l hl
    rw [extSpec_prefix _ cap xs (x :: ys) [] l hl]
    simp only [extSpec, hstep]
  have lift : ∀ {α : Type} (a b : Res TlsError α) (f g : α → ServerHs), (∀ l, a ≠ .ok l) →
      (∀ l, b = .ok l → a = .err (.abortHandshake .fatal .illegalParameter)) →
      (∀ h, a.map f ≠ .ok h) ∧ ∀ h, b.map g = .ok h → a.map f = .err (.abortHandshake .fatal .illegalParameter) := by
    intro α a b f g ha hab
    constructor
    · intro h
      cases a with
      | ok l => exact absurd rfl (ha l)
      | err e => simp [Res.map]
      | panic => simp [Res.map]
    · intro h hb
      cases b with
      | ok l => rw [hab l rfl]; rfl
      | err e => cases hb
      | panic => cases hb
  cases hmk with
  | serverHello v r sid cs comp => exact lift _ _ _ _ (bad 4) (ab 4)
  | encryptedExtensions => exact lift _ _ _ _ (bad 16) (ab 16)
  | certificateRequest ctx => exact lift _ _ _ _ (bad 6) (ab 6)
  | newSessionTicket a b n t => exact lift _ _ _ _ (bad 1) (ab 1)
  | certificate ctx cert es es' =>
    exact lift _ _ _ _ (certSpec_bad 16 cert _ (bad 2) es es' []) (certSpec_abort 16 cert xs _ (ab 2) es es' [])

/-! ## C09 -/

/-- **C09 does not hold**: an EncryptedExtensions message whose length field says 99 and whose body is 2 bytes long is
accepted (`handshake/mod.rs:206` reads the length and discards it). -/
theorem C09_refuted : ∃ (bytes : Bytes) (h : ServerHs) (p' : PB),
    ServerHs.parse S (PB.new bytes) = (.ok h, p') ∧
    (do let _ ← PB.readU8; PB.readU24 : P Nat) (PB.new bytes) = (.ok 99, ⟨bytes, 4⟩) ∧ p'.pos - 4 = 2 :=
  ⟨[8, 0, 0, 99, 0, 0], .encryptedExtensions, ⟨[8, 0, 0, 99, 0, 0], 6⟩, rfl, rfl, rfl⟩

/-- The part of C09 that holds: a well-formed message with its correct length field, if it is accepted, is consumed
exactly as far as the field says.  Missing: rejection when the field is wrong (`C09_refuted`); the second half shows
that the decoder's answer does not depend on the field at all. -/
theorem C09_partial (m : RawMsg) (hw : m.WellSized S.hashLen) (hb : m.body.length < 16777216) (A B : Bytes) :
    (∀ h, (ServerHs.parse S ⟨A ++ (m.bytes ++ B), A.length⟩).1 = .ok h →
      (ServerHs.parse S ⟨A ++ (m.bytes ++ B), A.length⟩).2.pos = A.length + (4 + m.body.length)) ∧
    (∀ n, n < 16777216 →
      (ServerHs.parse S ⟨A ++ ((m.type :: (be24 n ++ m.body)) ++ B), A.length⟩).1 =
        (ServerHs.parse S ⟨A ++ (m.bytes ++ B), A.length⟩).1) := by
  have h1 := serverHsParse_reads S m hw hb A B
  refine ⟨fun h hh => ?_, fun n hn => ?_⟩
  · rw [h1.1] at hh
    rw [h1.2 h hh]
    simp only [RawMsg.bytes, be24, List.length_cons, List.length_append, List.length_nil]
    omega
  · rw [(serverHsParse_reads_len S m hw n hn A B).1, h1.1]

example : (RawMsg.encryptedExtensions [⟨0, []⟩]).WellSized 32 ∧
    (ServerHs.parse S (PB.new (RawMsg.encryptedExtensions [⟨0, []⟩]).bytes)).1 = .ok .encryptedExtensions :=
  ⟨by unfold RawMsg.WellSized; decide, rfl⟩

/-! ## C55: RFC-encoded server messages decode to their fields -/

/-- The extension list of a message that contains only permitted extensions whose payloads decode. -/
def GoodExts (m : ExtMsg) (cap : Nat) (raw : List RawExt) (exts : List Ext) : Prop :=
  raw.length ≤ cap ∧ List.Forall₂ (fun r e => (e.ty, r.ty) ∈ extensionTypes ∧
    ∃ parser, groupOf m e.ty = some parser ∧ (parser (PB.new r.data)).1 = .ok e.data) raw exts

theorem extSpec_good (m : ExtMsg) (cap : Nat) (raw : List RawExt) (exts : List Ext)
    (h : List.Forall₂ (fun (r : RawExt) (e : Ext) => (e.ty, r.ty) ∈ extensionTypes ∧
      ∃ parser, groupOf m e.ty = some parser ∧ (parser (PB.new r.data)).1 = .ok e.data) raw exts) :
    ∀ acc, acc.length + raw.length ≤ cap → extSpec (groupOf m) cap acc raw = .ok (acc ++ exts) := by
  induction h with
  | nil => intro acc _; simp [extSpec]
  | cons hd _ ih =>
    intro acc hcap
    obtain ⟨h1, parser, h2, h3⟩ := hd
    simp only [List.length_cons] at hcap
    simp only [extSpec, extStep, C04_extension_type.accept _ _ h1, h2, h3]
    rw [if_pos (by omega), ih _ (by simp; omega)]
    simp

/-- **C55** a ServerHello in RFC 8446 encoding whose extensions are permitted and decodable is decoded to exactly its
extensions, whatever the other fields are and whatever surrounds it, and is consumed exactly. -/
theorem C55_server_hello (v : Nat) (r sid : Bytes) (cs : Nat) (comp : UInt8) (raw : List RawExt) (exts : List Ext)
    (hw : (RawMsg.serverHello v r sid cs comp raw).WellSized S.hashLen)
    (hb : (RawMsg.serverHello v r sid cs comp raw).body.length < 16777216)
    (he : GoodExts .serverHello 4 raw exts) (A B : Bytes) :
    ServerHs.parse S ⟨A ++ ((RawMsg.serverHello v r sid cs comp raw).bytes ++ B), A.length⟩ =
      (.ok (.serverHello exts), ⟨A ++ ((RawMsg.serverHello v r sid cs comp raw).bytes ++ B),
        A.length + (RawMsg.serverHello v r sid cs comp raw).bytes.length⟩) := by
  have h := serverHsParse_reads S _ hw hb
  have hs := extSpec_good .serverHello 4 raw exts he.2 [] (by simpa using he.1)
  simp only [groupOf, List.nil_append] at hs
  simp only [decoded, hs, Res.map] at h
  exact Reads.ok_iff.mp h A B

/-- **C55** EncryptedExtensions. -/
theorem C55_encrypted_extensions (raw : List RawExt) (exts : List Ext)
    (hw : ExtsSized raw) (he : GoodExts .encryptedExtensions 16 raw exts) (A B : Bytes) :
    ServerHs.parse S ⟨A ++ ((RawMsg.encryptedExtensions raw).bytes ++ B), A.length⟩ =
      (.ok .encryptedExtensions, ⟨A ++ ((RawMsg.encryptedExtensions raw).bytes ++ B),
        A.length + (RawMsg.encryptedExtensions raw).bytes.length⟩) := by
  have h := serverHsParse_reads S (.encryptedExtensions raw) hw (by
    have := hw.2; simp only [RawMsg.body, extVec, be16, List.length_append, List.length_cons, List.length_nil]; omega)
  have hs := extSpec_good .encryptedExtensions 16 raw exts he.2 [] (by simpa using he.1)
  simp only [groupOf, List.nil_append] at hs
  simp only [decoded, hs, Res.map] at h
  exact Reads.ok_iff.mp h A B

/-- **C55** CertificateRequest: the request context is the one sent. -/
theorem C55_certificate_request (ctx : Bytes) (raw : List RawExt) (exts : List Ext)
    (hw : (RawMsg.certificateRequest ctx raw).WellSized S.hashLen)
    (he : GoodExts .certificateRequest 6 raw exts) (A B : Bytes) :
    ServerHs.parse S ⟨A ++ ((RawMsg.certificateRequest ctx raw).bytes ++ B), A.length⟩ =
      (.ok (.certificateRequest ctx), ⟨A ++ ((RawMsg.certificateRequest ctx raw).bytes ++ B),
        A.length + (RawMsg.certificateRequest ctx raw).bytes.length⟩) := by
  have h := serverHsParse_reads S (.certificateRequest ctx raw) hw (by
    have := hw.2.2; have := hw.1
    simp only [RawMsg.body, extVec, be16, List.length_append, List.length_cons, List.length_nil]; omega)
  have hs := extSpec_good .certificateRequest 6 raw exts he.2 [] (by simpa using he.1)
  simp only [groupOf, List.nil_append] at hs
  simp only [decoded, hs, Res.map] at h
  exact Reads.ok_iff.mp h A B

theorem certSpec_good (cap : Nat) (es : List (Bytes × List RawExt))
    (h : ∀ e ∈ es, ∃ exts, GoodExts .certificate 2 e.2 exts) :
    ∀ acc, acc.length + es.length ≤ cap → certSpec cap acc es = .ok (acc ++ es.map fun e => .x509 e.1) := by
  induction es with
  | nil => intro acc _; simp [certSpec]
  | cons x xs ih =>
    intro acc hcap
    obtain ⟨exts, he⟩ := h x List.mem_cons_self
    have hs := extSpec_good .certificate 2 x.2 exts he.2 [] (by simpa using he.1)
    simp only [groupOf, List.nil_append] at hs
    simp only [List.length_cons] at hcap
    simp only [certSpec, hs]
    rw [if_pos (by omega), ih (fun e he => h e (List.mem_cons_of_mem _ he)) _ (by simp; omega)]
    simp

/-- **C55** Certificate: a chain of up to 16 certificates arrives entry by entry, in order. -/
theorem C55_certificate (ctx : Bytes) (es : List (Bytes × List RawExt))
    (hw : (RawMsg.certificate ctx es).WellSized S.hashLen) (hb : (RawMsg.certificate ctx es).body.length < 16777216)
    (hn : es.length ≤ 16) (he : ∀ e ∈ es, ∃ exts, GoodExts .certificate 2 e.2 exts) (A B : Bytes) :
    ServerHs.parse S ⟨A ++ ((RawMsg.certificate ctx es).bytes ++ B), A.length⟩ =
      (.ok (.certificate ⟨es.flatMap certEntryBytes, ctx, es.map fun e => .x509 e.1⟩),
        ⟨A ++ ((RawMsg.certificate ctx es).bytes ++ B), A.length + (RawMsg.certificate ctx es).bytes.length⟩) := by
  have h := serverHsParse_reads S (.certificate ctx es) hw hb
  have hs := certSpec_good 16 es he [] (by simpa using hn)
  simp only [List.nil_append] at hs
  simp only [decoded, hs, Res.map] at h
  exact Reads.ok_iff.mp h A B

/-- **C55** CertificateVerify. -/
theorem C55_certificate_verify (scheme : SignatureScheme) (code : Nat) (sig : Bytes)
    (hc : (scheme, code) ∈ signatureSchemes) (hl : sig.length < 65536) (A B : Bytes) :
    ServerHs.parse S ⟨A ++ ((RawMsg.certificateVerify code sig).bytes ++ B), A.length⟩ =
      (.ok (.certificateVerify ⟨scheme, sig⟩), ⟨A ++ ((RawMsg.certificateVerify code sig).bytes ++ B),
        A.length + (RawMsg.certificateVerify code sig).bytes.length⟩) := by
  have h := serverHsParse_reads S (.certificateVerify code sig) ⟨⟨scheme, hc⟩, hl⟩ (by
    simp only [RawMsg.body, be16, List.length_append, List.length_cons, List.length_nil]; omega)
  simp only [decoded, C04_signature_scheme.accept _ _ hc] at h
  exact Reads.ok_iff.mp h A B

/-- **C55** Finished. -/
theorem C55_finished (v : Bytes) (hl : v.length = S.hashLen) (hh : S.hashLen ≤ 64) (A B : Bytes) :
    ServerHs.parse S ⟨A ++ ((RawMsg.finished v).bytes ++ B), A.length⟩ =
      (.ok (.finished ⟨v, none⟩), ⟨A ++ ((RawMsg.finished v).bytes ++ B),
        A.length + (RawMsg.finished v).bytes.length⟩) := by
  have h := serverHsParse_reads S (.finished v) hl (by simp only [RawMsg.body]; omega)
  exact Reads.ok_iff.mp h A B

/-- **C55** NewSessionTicket. -/
theorem C55_new_session_ticket (lt aa : Nat) (n t : Bytes) (raw : List RawExt) (exts : List Ext)
    (hw : (RawMsg.newSessionTicket lt aa n t raw).WellSized S.hashLen)
    (he : GoodExts .newSessionTicket 1 raw exts) (A B : Bytes) :
    ServerHs.parse S ⟨A ++ ((RawMsg.newSessionTicket lt aa n t raw).bytes ++ B), A.length⟩ =
      (.ok .newSessionTicket, ⟨A ++ ((RawMsg.newSessionTicket lt aa n t raw).bytes ++ B),
        A.length + (RawMsg.newSessionTicket lt aa n t raw).bytes.length⟩) := by
  have h := serverHsParse_reads S (.newSessionTicket lt aa n t raw) hw (by
    obtain ⟨_, _, h3, h4, _, h5⟩ := hw
    simp only [RawMsg.body, extVec, be16, be32, List.length_append, List.length_cons, List.length_nil]; omega)
  have hs := extSpec_good .newSessionTicket 1 raw exts he.2 [] (by simpa using he.1)
  simp only [groupOf, List.nil_append] at hs
  simp only [decoded, hs, Res.map] at h
  exact Reads.ok_iff.mp h A B

example : GoodExts .serverHello 4 [⟨51, [0, 23, 0, 2, 7, 8]⟩, ⟨43, [3, 4]⟩]
    [⟨.keyShare, .keyShareSH ⟨.secp256r1, [7, 8]⟩⟩, ⟨.supportedVersions, .supportedVersionsSH 0x0304⟩] := by
  refine ⟨by decide, .cons ⟨by decide, _, rfl, by decide⟩ (.cons ⟨by decide, _, rfl, by decide⟩ .nil)⟩

end ETls
