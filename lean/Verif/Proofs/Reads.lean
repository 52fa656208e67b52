import Verif.Proofs.Parse
import Verif.Proofs.Encode
import Verif.Spec.ServerMessages
import Verif.Props.Buffers
import Verif.Props.CodePoints

/-! # What the parsers return on encoded input -/

namespace ETls
open Spec

/-- At a position followed by `bs`, `m` returns `r`; if that is a success it has consumed exactly `bs`. -/
def Reads {ε α : Type} (m : M ε PB α) (bs : Bytes) (r : Res ε α) : Prop :=
  ∀ A B : Bytes, (m ⟨A ++ (bs ++ B), A.length⟩).1 = r ∧
    ∀ a, r = .ok a → (m ⟨A ++ (bs ++ B), A.length⟩).2 = ⟨A ++ (bs ++ B), A.length + bs.length⟩

namespace Reads
variable {ε α β : Type}

theorem ok_iff {m : M ε PB α} {bs : Bytes} {a : α} :
    Reads m bs (.ok a) ↔ ∀ A B, m ⟨A ++ (bs ++ B), A.length⟩ = (.ok a, ⟨A ++ (bs ++ B), A.length + bs.length⟩) := by
  constructor
  · intro h A B
    obtain ⟨h1, h2⟩ := h A B
    have := h2 a rfl
    rw [← h1, ← this]
  · intro h A B
    rw [h A B]
    exact ⟨rfl, fun _ _ => rfl⟩

theorem of_eq {m : M ε PB α} {bs : Bytes} {a : α}
    (h : ∀ A B, m ⟨A ++ (bs ++ B), A.length⟩ = (.ok a, ⟨A ++ (bs ++ B), A.length + bs.length⟩)) :
    Reads m bs (.ok a) := ok_iff.mpr h

theorem bind {m : M ε PB α} {f : α → M ε PB β} {bs cs : Bytes} {a : α} {r : Res ε β} (h : Reads m bs (.ok a))
    (hf : Reads (f a) cs r) : Reads (m >>= f) (bs ++ cs) r := by
  intro A B
  have h1 := ok_iff.mp h A (cs ++ B)
  have h2 := hf (A ++ bs) B
  simp only [List.append_assoc, List.length_append] at h1 h2 ⊢
  rw [M.bind_ok h1]
  refine ⟨h2.1, fun b hb => ?_⟩
  rw [h2.2 b hb, Nat.add_assoc]

theorem bind_err {m : M ε PB α} {f : α → M ε PB β} {bs cs : Bytes} {e : ε} (h : Reads m bs (.err e)) :
    Reads (m >>= f) (bs ++ cs) (.err e) := by
  intro A B
  have h1 := (h A (cs ++ B)).1
  rw [List.append_assoc]
  rcases hm : m ⟨A ++ (bs ++ (cs ++ B)), A.length⟩ with ⟨r, s⟩
  rw [hm] at h1
  simp only at h1
  subst h1
  rw [M.bind_err hm]
  exact ⟨rfl, by simp⟩

theorem pure (a : α) : Reads (ε := ε) (Pure.pure a) [] (.ok a) := of_eq fun _ _ => rfl

theorem ret {m : M ε PB α} {f : α → β} {bs : Bytes} {r : Res ε α} (h : Reads m bs r) :
    Reads (m >>= fun a => Pure.pure (f a)) bs (r.map f) := by
  intro A B
  obtain ⟨h1, h2⟩ := h A B
  rcases hm : m ⟨A ++ (bs ++ B), A.length⟩ with ⟨r', s⟩
  rw [hm] at h1 h2
  simp only at h1
  subst h1
  cases r' with
  | ok a => rw [M.bind_ok hm]; exact ⟨rfl, fun _ _ => h2 a rfl⟩
  | err e => rw [M.bind_err hm]; exact ⟨rfl, by simp [Res.map]⟩
  | panic => rw [M.bind_panic hm]; exact ⟨rfl, by simp [Res.map]⟩

theorem lift (r : Res ε α) : Reads (M.lift r) [] r := fun _ _ => ⟨rfl, fun _ _ => rfl⟩

theorem fail (e : ε) (bs : Bytes) : Reads (M.fail e : M ε PB α) bs (.err e) := fun _ _ => ⟨rfl, by simp⟩

theorem orErr {m : P α} {bs : Bytes} {a : α} (h : Reads m bs (.ok a)) (e : TlsError) :
    Reads (m.orErr e) bs (.ok a) := of_eq fun A B => by
  simp only [P.orErr, M.mapErr, ok_iff.mp h A B, Res.mapErr]

theorem toT {m : P α} {bs : Bytes} {a : α} (h : Reads m bs (.ok a)) : Reads m.toT bs (.ok a) := of_eq fun A B => by
  simp only [P.toT, M.mapErr, ok_iff.mp h A B, Res.mapErr]

theorem cast {m : M ε PB α} {bs cs : Bytes} {r : Res ε α} (h : Reads m bs r) (e : bs = cs) : Reads m cs r := e ▸ h

theorem castRes {m : M ε PB α} {bs : Bytes} {r r' : Res ε α} (h : Reads m bs r) (e : r = r') : Reads m bs r' := e ▸ h

theorem u8 (b : UInt8) : Reads PB.readU8 [b] (.ok b.toNat) := of_eq fun A B => readU8_mid A B b
theorem u8n (n : Nat) (h : n < 256) : Reads PB.readU8 [UInt8.ofNat n] (.ok n) := by
  have := u8 (UInt8.ofNat n)
  rwa [toNat_ofNat, Nat.mod_eq_of_lt h] at this
theorem u16 (n : Nat) (h : n < 65536) : Reads PB.readU16 (be16 n) (.ok n) := of_eq fun A B => readU16_mid A B n h
theorem u24 (n : Nat) (h : n < 16777216) : Reads PB.readU24 (be24 n) (.ok n) := of_eq fun A B => readU24_mid A B n h
theorem u32 (n : Nat) (h : n < 4294967296) : Reads PB.readU32 (be32 n) (.ok n) :=
  of_eq fun A B => readU32_mid A B n h
theorem slice (d : Bytes) : Reads (PB.slice d.length) d (.ok (PB.new d)) := of_eq fun A B => slice_mid A d B
theorem fill (d : Bytes) : Reads (PB.fill d.length) d (.ok d) := of_eq fun A B => fill_mid A d B

theorem code16 {table : List (α × Nat)} {code : α → Nat} {of : Nat → Option α} (h : Realises table code of)
    {n : Nat} {x : α} (hx : (x, n) ∈ table) (hn : n < 65536) : Reads (parseCode PB.readU16 of) (be16 n) (.ok x) :=
  of_eq fun A B => (C04_wire_u16 h A B n hn).1 x hx

theorem code8 {table : List (α × Nat)} {code : α → Nat} {of : Nat → Option α} (h : Realises table code of)
    {b : UInt8} {x : α} (hx : (x, b.toNat) ∈ table) : Reads (parseCode PB.readU8 of) [b] (.ok x) :=
  of_eq fun A B => (C04_wire_u8 h A B b).1 x hx

theorem readList {read : P α} (cap : Nat) (enc : α → Bytes) (xs : List α)
    (h : ∀ x ∈ xs, Reads read (enc x) (.ok x)) (hpos : ∀ x ∈ xs, 0 < (enc x).length) (hcap : xs.length ≤ cap) :
    Reads (PB.readList cap (xs.flatMap enc).length read) (xs.flatMap enc) (.ok xs) :=
  of_eq fun A B => readList_enc cap enc xs (fun x hx => ok_iff.mp (h x hx)) hpos hcap A B

end Reads

/-! ## Extensions -/

/-- What one raw extension decodes to. -/
def extStep (g : ExtGroup) (x : RawExt) : Res TlsError Ext :=
  match ExtensionType.of x.ty with
  | none => .err .unknownExtensionType
  | some t =>
    match g t with
    | none => .err (.abortHandshake .fatal .illegalParameter)
    | some parser =>
      match (parser (PB.new x.data)).1 with
      | .ok d => .ok ⟨t, d⟩
      | .err _ => .err .decodeError
      | .panic => .panic

theorem extParse_reads (g : ExtGroup) (x : RawExt) (h1 : x.ty < 65536) (h2 : x.data.length < 65536)
    (A B : Bytes) : extParse g ⟨A ++ (x.bytes ++ B), A.length⟩ =
      (extStep g x, ⟨A ++ (x.bytes ++ B), A.length + x.bytes.length⟩) := by
  obtain ⟨t, d⟩ := x
  simp only at h1 h2
  have hlen : (RawExt.bytes ⟨t, d⟩).length = 2 + (2 + d.length) := by simp [RawExt.bytes, be16]; omega
  -- the two reads after the type
  have r2 := (Reads.u16 _ h2).orErr .decodeError |> Reads.ok_iff.mp
  have r3 := (Reads.slice d).orErr .decodeError |> Reads.ok_iff.mp
  have r2' := r2 (A ++ be16 t) (d ++ B)
  have r3' := r3 (A ++ be16 t ++ be16 d.length) B
  simp only [List.append_assoc, List.length_append] at r2' r3'
  have hbuf : A ++ (RawExt.bytes ⟨t, d⟩ ++ B) = A ++ (be16 t ++ (be16 d.length ++ (d ++ B))) := by
    simp [RawExt.bytes]
  have hty : ∀ (ot : Option ExtensionType), ExtensionType.of t = ot →
      ExtensionType.parse ⟨A ++ (be16 t ++ (be16 d.length ++ (d ++ B))), A.length⟩ =
        ((match ot with | some x => .ok x | none => .err .invalidData),
          ⟨A ++ (be16 t ++ (be16 d.length ++ (d ++ B))), A.length + 2⟩) := by
    intro ot hot
    unfold ExtensionType.parse parseCode
    rw [M.bind_ok (readU16_mid A _ t h1), hot]
    cases ot <;> rfl
  rw [hbuf, hlen]
  unfold extParse extStep
  simp only [show (be16 t).length = 2 from rfl, show (be16 d.length).length = 2 from rfl] at r2' r3'
  cases hot : ExtensionType.of t with
  | none =>
    rw [hty none hot]
    simp only
    rw [M.bind_ok r2', M.bind_ok r3']
    simp only [M.fail_apply, Prod.mk.injEq, true_and, PB.mk.injEq]
    omega
  | some ty =>
    rw [hty (some ty) hot]
    simp only
    rw [M.bind_ok r2', M.bind_ok r3']
    cases g ty with
    | none => simp only [M.fail_apply, Prod.mk.injEq, true_and, PB.mk.injEq]; omega
    | some parser =>
      simp only
      cases (parser (PB.new d)).1 with
      | ok x => simp only [M.pure_apply, Prod.mk.injEq, true_and, PB.mk.injEq]; omega
      | err e => simp only [M.fail_apply, Prod.mk.injEq, true_and, PB.mk.injEq]; omega
      | panic => simp only [M.crash_apply, Prod.mk.injEq, true_and, PB.mk.injEq]; omega

/-- What a list of raw extensions decodes to. -/
def extSpec (g : ExtGroup) (cap : Nat) : List Ext → List RawExt → Res TlsError (List Ext)
  | acc, [] => .ok acc
  | acc, x :: xs =>
    match extStep g x with
    | .ok e => if acc.length < cap then extSpec g cap (acc ++ [e]) xs else .err .decodeError
    | .err .unknownExtensionType => extSpec g cap acc xs
    | .err e => .err e
    | .panic => .panic

theorem extLoop_reads (g : ExtGroup) (cap : Nat) (xs : List RawExt)
    (hs : ∀ e ∈ xs, e.ty < 65536 ∧ e.data.length < 65536) :
    ∀ (acc : List Ext) (fuel : Nat) (A : Bytes), xs.length < fuel →
      (extLoop g cap fuel acc ⟨A ++ xs.flatMap RawExt.bytes, A.length⟩).1 = extSpec g cap acc xs := by
  induction xs with
  | nil =>
    intro acc fuel A hf
    obtain ⟨f, rfl⟩ : ∃ f, fuel = f + 1 := ⟨fuel - 1, by omega⟩
    simp [extLoop, extSpec, PB.isEmpty]
  | cons x xs ih =>
    intro acc fuel A hf
    obtain ⟨f, rfl⟩ : ∃ f, fuel = f + 1 := ⟨fuel - 1, by omega⟩
    have hx := hs x List.mem_cons_self
    have hl : 0 < x.bytes.length := by simp [RawExt.bytes, be16]
    simp only [List.flatMap_cons, extLoop, extSpec]
    rw [if_neg (by simp only [PB.isEmpty, beq_iff_eq, List.length_append]; omega)]
    rw [extParse_reads g x hx.1 hx.2 A _]
    have key := fun acc' => ih (fun e he => hs e (List.mem_cons_of_mem _ he)) acc' f (A ++ x.bytes)
      (by simp at hf; omega)
    simp only [List.append_assoc, List.length_append] at key
    cases extStep g x with
    | ok e =>
      simp only
      split
      · exact key _
      · rfl
    | err e =>
      cases e <;> first | exact key _ | rfl
    | panic => rfl

theorem extParseVector_reads (g : ExtGroup) (cap : Nat) (xs : List RawExt) (hs : ExtsSized xs) :
    Reads (extParseVector g cap) (extVec xs) (extSpec g cap [] xs) := by
  unfold extParseVector extVec
  refine ((Reads.u16 _ hs.2).orErr _).bind ?_
  have h2 : Reads (M.lift (extLoop g cap ((xs.flatMap RawExt.bytes).length + 1) []
      (PB.new (xs.flatMap RawExt.bytes))).1 : PT (List Ext)) [] (extSpec g cap [] xs) := by
    have := extLoop_reads g cap xs hs.1 [] ((xs.flatMap RawExt.bytes).length + 1) []
      (by have := flatMap_length_ge RawExt.bytes xs (fun e _ => by simp [RawExt.bytes, be16]); omega)
    simp only [List.nil_append, List.length_nil] at this
    rw [show PB.new (xs.flatMap RawExt.bytes) = ⟨xs.flatMap RawExt.bytes, 0⟩ from rfl, this]
    exact Reads.lift _
  exact ((Reads.slice (xs.flatMap RawExt.bytes)).toT.bind h2).cast (by simp)

end ETls

namespace ETls
open Spec

/-! ## Messages -/

variable (S : Suite)

/-- What a certificate list decodes to. -/
def certSpec (cap : Nat) : List CertEntry → List (Bytes × List RawExt) → Res TlsError (List CertEntry)
  | acc, [] => .ok acc
  | acc, e :: es =>
    match extSpec certificateGroup 2 [] e.2 with
    | .ok _ => if acc.length < cap then certSpec cap (acc ++ [.x509 e.1]) es else .err .decodeError
    | .err x => .err x
    | .panic => .panic

theorem certEntry_reads (e : Bytes × List RawExt) (h1 : e.1.length < 16777216) (h2 : ExtsSized e.2) :
    Reads CertEntry.parse (certEntryBytes e) ((extSpec certificateGroup 2 [] e.2).map fun _ => .x509 e.1) := by
  unfold CertEntry.parse certEntryBytes
  refine ((Reads.u24 _ h1).orErr _).bind (((Reads.slice _).orErr _).bind ?_)
  exact (extParseVector_reads certificateGroup 2 e.2 h2).ret

theorem certLoop_reads (cap : Nat) (es : List (Bytes × List RawExt))
    (hs : ∀ e ∈ es, e.1.length < 16777216 ∧ ExtsSized e.2) :
    ∀ (acc : List CertEntry) (fuel : Nat) (A : Bytes), es.length < fuel →
      (PB.readListLoop cap .decodeError CertEntry.parse fuel acc ⟨A ++ es.flatMap certEntryBytes, A.length⟩).1 =
        certSpec cap acc es := by
  induction es with
  | nil =>
    intro acc fuel A hf
    obtain ⟨f, rfl⟩ : ∃ f, fuel = f + 1 := ⟨fuel - 1, by omega⟩
    simp [PB.readListLoop, certSpec, PB.isEmpty]
  | cons x xs ih =>
    intro acc fuel A hf
    obtain ⟨f, rfl⟩ : ∃ f, fuel = f + 1 := ⟨fuel - 1, by omega⟩
    have hx := hs x List.mem_cons_self
    have hl : 0 < (certEntryBytes x).length := by simp [certEntryBytes, be24]
    simp only [List.flatMap_cons, PB.readListLoop, certSpec]
    rw [if_neg (by simp only [PB.isEmpty, beq_iff_eq, List.length_append]; omega)]
    have hr := certEntry_reads x hx.1 hx.2 A (xs.flatMap certEntryBytes)
    have key := fun acc' => ih (fun e he => hs e (List.mem_cons_of_mem _ he)) acc' f (A ++ certEntryBytes x)
      (by simp at hf; omega)
    simp only [List.append_assoc, List.length_append] at key
    rcases hm : CertEntry.parse ⟨A ++ (certEntryBytes x ++ xs.flatMap certEntryBytes), A.length⟩ with ⟨r, s⟩
    rw [hm] at hr
    simp only at hr
    cases hext : extSpec certificateGroup 2 [] x.2 with
    | ok ee =>
      rw [hext] at hr
      obtain ⟨h1, h2⟩ := hr
      have h2 := h2 _ rfl
      subst h1; subst h2
      simp only [Res.map] at hm
      rw [M.bind_ok hm]
      simp only
      by_cases hc : acc.length < cap
      · rw [if_pos hc, if_pos hc]; exact key _
      · rw [if_neg hc, if_neg hc]; rfl
    | err e =>
      rw [hext] at hr
      obtain ⟨h1, _⟩ := hr
      subst h1
      simp only [Res.map] at hm
      rw [M.bind_err hm]
    | panic =>
      rw [hext] at hr
      obtain ⟨h1, _⟩ := hr
      subst h1
      simp only [Res.map] at hm
      rw [M.bind_panic hm]

/-- What a raw message decodes to. -/
def decoded : RawMsg → Res TlsError ServerHs
  | .serverHello _ _ _ _ _ xs => (extSpec serverHelloGroup 4 [] xs).map .serverHello
  | .encryptedExtensions xs => (extSpec encryptedExtensionsGroup 16 [] xs).map fun _ => .encryptedExtensions
  | .certificateRequest ctx xs => (extSpec certificateRequestGroup 6 [] xs).map fun _ => .certificateRequest ctx
  | .certificate ctx es =>
    (certSpec 16 [] es).map fun entries => .certificate ⟨es.flatMap certEntryBytes, ctx, entries⟩
  | .certificateVerify s sig =>
    match SignatureScheme.of s with
    | some x => .ok (.certificateVerify ⟨x, sig⟩)
    | none => .err .invalidSignatureScheme
  | .finished v => .ok (.finished ⟨v, none⟩)
  | .newSessionTicket _ _ _ _ xs => (extSpec newSessionTicketGroup 1 [] xs).map fun _ => .newSessionTicket

theorem serverHello_reads (v : Nat) (r sid : Bytes) (cs : Nat) (comp : UInt8) (xs : List RawExt)
    (h : RawMsg.WellSized S.hashLen (.serverHello v r sid cs comp xs)) :
    Reads serverHelloParse (RawMsg.body (.serverHello v r sid cs comp xs)) (extSpec serverHelloGroup 4 [] xs) := by
  obtain ⟨h1, h2, h3, ⟨c, hc⟩, h4⟩ := h
  have hcs : cs < 65536 := by
    have := C04_cipher_suite.encode_decode cs c (C04_cipher_suite.accept _ _ hc)
    subst this; cases c <;> decide
  unfold serverHelloParse RawMsg.body
  refine ((Reads.u16 _ h1).orErr _).bind ?_
  have hf := Reads.fill r
  rw [h2] at hf
  refine hf.toT.bind ?_
  refine (((Reads.u8n _ h3).orErr .invalidSessionIdLength).bind ?_).cast (List.singleton_append)
  refine ((Reads.slice sid).orErr .invalidSessionIdLength).bind ?_
  refine ((Reads.code16 C04_cipher_suite hc hcs).orErr .invalidCipherSuite).bind ?_
  refine ((Reads.u8 comp).toT.bind ?_).cast (List.singleton_append)
  exact extParseVector_reads _ _ _ h4

theorem certMsg_reads (ctx : Bytes) (es : List (Bytes × List RawExt))
    (h : RawMsg.WellSized S.hashLen (.certificate ctx es)) :
    Reads CertMsg.parse (RawMsg.body (.certificate ctx es))
      ((certSpec 16 [] es).map fun entries => ⟨es.flatMap certEntryBytes, ctx, entries⟩) := by
  obtain ⟨h1, h2, h3⟩ := h
  unfold CertMsg.parse RawMsg.body
  refine (((Reads.u8n _ h1).orErr .invalidCertificate).bind ?_).cast (List.singleton_append)
  refine ((Reads.slice ctx).orErr _).bind (((Reads.u24 _ h3).orErr _).bind ?_)
  have hl : CertEntry.parseVector 16 (PB.new (es.flatMap certEntryBytes)) = certSpec 16 [] es := by
    have := certLoop_reads 16 es h2 [] ((es.flatMap certEntryBytes).length + 1) []
      (by have := flatMap_length_ge certEntryBytes es (fun e _ => by simp [certEntryBytes, be24]); omega)
    exact this
  refine (((Reads.slice (es.flatMap certEntryBytes)).orErr _).bind ?_).cast (List.append_nil _)
  rw [hl]
  exact (Reads.lift _).ret

theorem certRequest_reads (ctx : Bytes) (xs : List RawExt)
    (h : RawMsg.WellSized S.hashLen (.certificateRequest ctx xs)) :
    Reads certRequestParse (RawMsg.body (.certificateRequest ctx xs))
      ((extSpec certificateRequestGroup 6 [] xs).map fun _ => ctx) := by
  unfold certRequestParse RawMsg.body
  refine (((Reads.u8n _ h.1).orErr .invalidCertificateRequest).bind ?_).cast (List.singleton_append)
  refine ((Reads.slice ctx).orErr _).bind ?_
  exact (extParseVector_reads _ _ _ h.2).ret

theorem certVerify_reads (s : Nat) (sig : Bytes) (c : SignatureScheme) (hc : (c, s) ∈ signatureSchemes)
    (h : sig.length < 65536) :
    Reads CertVerify.parse (RawMsg.body (.certificateVerify s sig)) (.ok ⟨c, sig⟩) := by
  have hs : s < 65536 := by
    have := C04_signature_scheme.encode_decode s c (C04_signature_scheme.accept _ _ hc)
    subst this; cases c <;> decide
  unfold CertVerify.parse RawMsg.body
  refine ((Reads.code16 C04_signature_scheme hc hs).orErr _).bind (((Reads.u16 _ h).orErr _).bind ?_)
  exact (Reads.ret (f := fun p : PB => CertVerify.mk c p.buffer) ((Reads.slice sig).orErr .invalidSignature))

theorem newSessionTicket_reads (lt aa : Nat) (n t : Bytes) (xs : List RawExt)
    (h : RawMsg.WellSized S.hashLen (.newSessionTicket lt aa n t xs)) :
    Reads newSessionTicketParse (RawMsg.body (.newSessionTicket lt aa n t xs))
      ((extSpec newSessionTicketGroup 1 [] xs).map fun _ => ()) := by
  obtain ⟨h1, h2, h3, h4, h5⟩ := h
  unfold newSessionTicketParse RawMsg.body
  refine (Reads.u32 _ h1).toT.bind ((Reads.u32 _ h2).toT.bind ?_)
  refine ((Reads.u8n _ h3).toT.bind ?_).cast (List.singleton_append)
  refine ((Reads.slice n).orErr _).bind ((Reads.u16 _ h4).toT.bind (((Reads.slice t).orErr _).bind ?_))
  exact (extParseVector_reads _ _ _ h5).ret

/-- The value `n` of the length field does not matter. -/
theorem serverHsParse_reads_len (m : RawMsg) (h : m.WellSized S.hashLen) (n : Nat) (hb : n < 16777216) :
    Reads (ServerHs.parse S) (m.type :: (be24 n ++ m.body)) (decoded m) := by
  unfold ServerHs.parse
  have htype : ∀ t : HandshakeType, (t, m.type.toNat) ∈ handshakeTypes → ∀ {r},
      Reads (match t with
        | .serverHello => do return .serverHello (← serverHelloParse)
        | .newSessionTicket => do
          newSessionTicketParse
          return .newSessionTicket
        | .encryptedExtensions => do
          encryptedExtensionsParse
          return .encryptedExtensions
        | .certificate => do return .certificate (← CertMsg.parse)
        | .certificateRequest => do return .certificateRequest (← certRequestParse)
        | .certificateVerify => do return .certificateVerify (← CertVerify.parse)
        | .finished => do return .finished (← finishedParse S)
        | _ => M.fail .unimplemented : PT ServerHs) m.body r →
      Reads (do
        let t ← HandshakeType.parse.orErr .invalidHandshake
        let _ ← PB.readU24.orErr .invalidHandshake
        match t with
        | .serverHello => return .serverHello (← serverHelloParse)
        | .newSessionTicket => do
          newSessionTicketParse
          return .newSessionTicket
        | .encryptedExtensions => do
          encryptedExtensionsParse
          return .encryptedExtensions
        | .certificate => return .certificate (← CertMsg.parse)
        | .certificateRequest => return .certificateRequest (← certRequestParse)
        | .certificateVerify => return .certificateVerify (← CertVerify.parse)
        | .finished => return .finished (← finishedParse S)
        | _ => M.fail .unimplemented : PT ServerHs) (m.type :: (be24 n ++ m.body)) r := by
    intro t ht r hr
    refine (((Reads.code8 C04_handshake_type ht).orErr .invalidHandshake).bind ?_).cast (List.singleton_append)
    exact ((Reads.u24 _ hb).orErr _).bind hr
  cases m with
  | serverHello v r sid cs comp xs =>
    exact htype .serverHello (show (_, UInt8.toNat 2) ∈ handshakeTypes by decide) (serverHello_reads S v r sid cs comp xs h).ret
  | encryptedExtensions xs =>
    refine htype .encryptedExtensions (show (_, UInt8.toNat 8) ∈ handshakeTypes by decide) ?_
    have h1 : Reads encryptedExtensionsParse (extVec xs)
        ((extSpec encryptedExtensionsGroup 16 [] xs).map fun _ => ()) :=
      (extParseVector_reads encryptedExtensionsGroup 16 xs h).ret
    have h2 := h1.ret (f := fun _ => ServerHs.encryptedExtensions)
    simp only [decoded]
    refine h2.castRes ?_
    cases extSpec encryptedExtensionsGroup 16 [] xs <;> rfl
  | certificateRequest ctx xs =>
    refine htype .certificateRequest (show (_, UInt8.toNat 13) ∈ handshakeTypes by decide) ?_
    have h2 := (certRequest_reads S ctx xs h).ret (f := ServerHs.certificateRequest)
    refine h2.castRes ?_
    simp only [decoded]
    cases extSpec certificateRequestGroup 6 [] xs <;> rfl
  | certificate ctx es =>
    refine htype .certificate (show (_, UInt8.toNat 11) ∈ handshakeTypes by decide) ?_
    have h2 := (certMsg_reads S ctx es h).ret (f := ServerHs.certificate)
    refine h2.castRes ?_
    simp only [decoded]
    cases certSpec 16 [] es <;> rfl
  | certificateVerify s sig =>
    obtain ⟨⟨c, hc⟩, hl⟩ := h
    refine htype .certificateVerify (show (_, UInt8.toNat 15) ∈ handshakeTypes by decide) ?_
    have h2 := (certVerify_reads s sig c hc hl).ret (f := ServerHs.certificateVerify)
    refine h2.castRes ?_
    simp only [decoded, C04_signature_scheme.accept _ _ hc, Res.map]
  | finished v =>
    refine htype .finished (show (_, UInt8.toNat 20) ∈ handshakeTypes by decide) ?_
    have hf := Reads.fill v
    rw [show v.length = S.hashLen from h] at hf
    exact (hf.toT.ret (f := fun v => (⟨v, none⟩ : Finished))).ret (f := ServerHs.finished)
  | newSessionTicket lt aa n t xs =>
    refine htype .newSessionTicket (show (_, UInt8.toNat 4) ∈ handshakeTypes by decide) ?_
    have h2 := (newSessionTicket_reads S lt aa n t xs h).ret (f := fun _ => ServerHs.newSessionTicket)
    refine h2.castRes ?_
    simp only [decoded]
    cases extSpec newSessionTicketGroup 1 [] xs <;> rfl

theorem serverHsParse_reads (m : RawMsg) (h : m.WellSized S.hashLen) (hb : m.body.length < 16777216) :
    Reads (ServerHs.parse S) m.bytes (decoded m) := serverHsParse_reads_len S m h _ hb

end ETls
