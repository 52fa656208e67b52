import Verif.Proofs.ClientMsg
import Verif.Props.Readable
import Verif.Proofs.HandshakeRun

/-! # C75: the library reads back the ClientHello extensions it writes -/

namespace ETls
open Spec

/-- The extensions a ClientHello carries, with contents that fit their fields and the parsers' capacities. -/
inductive ClientExt : Ext → Prop where
  | versions (v : Nat) (h : v < 65536) : ClientExt ⟨.supportedVersions, .supportedVersionsCH [v]⟩
  | schemes (xs : List SignatureScheme) (h : xs.length ≤ 25) : ClientExt ⟨.signatureAlgorithms, .signatureAlgorithms xs⟩
  | schemesCert (xs : List SignatureScheme) (h : xs.length ≤ 25) :
      ClientExt ⟨.signatureAlgorithmsCert, .signatureAlgorithms xs⟩
  | fragment (m : MaxFragmentLength) : ClientExt ⟨.maxFragmentLength, .maxFragmentLength m⟩
  | groups (xs : List NamedGroup) (h : xs.length ≤ 13) : ClientExt ⟨.supportedGroups, .supportedGroups xs⟩
  | modes (xs : List PskKeyExchangeMode) (h : xs.length ≤ 4) : ClientExt ⟨.pskKeyExchangeModes, .pskModes xs⟩
  | share (g : NamedGroup) (key : Bytes) (h : key.length < 65000) : ClientExt ⟨.keyShare, .keyShareCH [⟨g, key⟩]⟩
  | name (n : Bytes) (h : n.length < 65000) (ha : ∀ b ∈ n, b < 128) : ClientExt ⟨.serverName, .serverNameList [n]⟩

/-- The payload of a ClientHello extension. -/
theorem clientExt_payload (e : Ext) (h : ClientExt e) : ∃ bs parser, Appends e.data.encode bs () ∧
    clientHelloGroup e.ty = some parser ∧ Reads parser bs (.ok e.data) ∧ bs.length < 65536 := by
  have c16 : ∀ {α : Type} (code : α → Nat) (xs : List α),
      (xs.flatMap fun x => be16 (code x)).length = 2 * xs.length := by
    intro α code xs
    induction xs with
    | nil => rfl
    | cons a l ih =>
      rw [List.flatMap_cons, List.length_append, ih]
      simp only [be16, List.length_cons, List.length_nil]
      omega
  have hng : ∀ g : NamedGroup, g.code < 65536 := by intro g; cases g <;> decide
  have hss : ∀ g : SignatureScheme, g.code < 65536 := by intro g; cases g <;> decide
  have hsch : ∀ xs : List SignatureScheme, xs.length ≤ 25 →
      Reads (signatureAlgorithmsParse 25) (be16 (xs.flatMap fun x => be16 x.code).length ++
        (xs.flatMap fun x => be16 x.code)) (.ok (.signatureAlgorithms xs)) := by
    intro xs h
    unfold signatureAlgorithmsParse
    refine (Reads.u16 _ (by rw [c16 SignatureScheme.code]; omega)).bind ?_
    exact (Reads.readList 25 (fun x : SignatureScheme => be16 x.code) xs
      (fun x _ => Reads.code16 C04_signature_scheme (C04_signature_scheme.encode_table x) (hss x)) (by simp [be16]) h).ret
        (f := ExtData.signatureAlgorithms)
  have hsa : ∀ xs : List SignatureScheme, Appends (ExtData.signatureAlgorithms xs).encode
      (be16 (xs.flatMap fun x => be16 x.code).length ++ (xs.flatMap fun x => be16 x.code)) () := fun xs =>
    (Appends.encAll (g := fun a : SignatureScheme => be16 a.code) _
      fun x _ => (Appends.pushU16 _).orEncodeError).withU16Length
  cases h with
  | versions v h =>
    refine ⟨_, _, (Appends.encAll (g := be16) _ fun x _ => (Appends.pushU16 x).orEncodeError).withU8Length, rfl, ?_, ?_⟩
    · unfold supportedVersionsCHParse
      refine (Reads.bind (Reads.u8n ([v].flatMap be16).length (by simp [be16])) ?_).cast List.singleton_append
      exact (Reads.readList 1 be16 [v] (fun x hx => by
        simp only [List.mem_singleton] at hx; subst hx; exact Reads.u16 _ h) (by simp [be16]) (by simp)).ret
          (f := ExtData.supportedVersionsCH)
    · simp [be16]
  | schemes xs h =>
    exact ⟨_, _, hsa xs, rfl, hsch xs h, by
      rw [List.length_append, c16 SignatureScheme.code]; simp only [be16, List.length_cons, List.length_nil]; omega⟩
  | schemesCert xs h =>
    exact ⟨_, _, hsa xs, rfl, hsch xs h, by
      rw [List.length_append, c16 SignatureScheme.code]; simp only [be16, List.length_cons, List.length_nil]; omega⟩
  | fragment m =>
    refine ⟨_, _, (Appends.push _).orEncodeError, rfl, ?_, by simp⟩
    unfold maxFragmentLengthParse
    refine Reads.ret (f := ExtData.maxFragmentLength) (r := .ok m) ?_
    refine Reads.code8 C04_max_fragment_length ?_
    rw [toNat_ofNat, Nat.mod_eq_of_lt (by cases m <;> decide)]
    exact C04_max_fragment_length.encode_table m
  | groups xs h =>
    refine ⟨_, _, (Appends.encAll (g := fun a : NamedGroup => be16 a.code) _
      fun x _ => (Appends.pushU16 _).orEncodeError).withU16Length, rfl, ?_, ?_⟩
    · unfold supportedGroupsParse
      refine (Reads.u16 _ (by rw [c16 NamedGroup.code]; omega)).bind ?_
      exact (Reads.readList 13 (fun x : NamedGroup => be16 x.code) xs
        (fun x _ => Reads.code16 C04_named_group (C04_named_group.encode_table x) (hng x)) (by simp [be16]) h).ret
          (f := ExtData.supportedGroups)
    · rw [List.length_append, c16 NamedGroup.code]; simp only [be16, List.length_cons, List.length_nil]; omega
  | modes xs h =>
    have hl : (xs.flatMap fun m : PskKeyExchangeMode => [UInt8.ofNat m.code]).length = xs.length := by
      clear h
      induction xs with
      | nil => rfl
      | cons a l ih => simp only [List.flatMap_cons, List.length_append, ih, List.length_cons, List.length_nil]; omega
    refine ⟨_, _, (Appends.encAll (g := fun m : PskKeyExchangeMode => [UInt8.ofNat m.code]) _
      fun _ _ => (Appends.push _).orEncodeError).withU8Length, rfl, ?_, ?_⟩
    · unfold pskModesParse
      refine (Reads.bind (Reads.u8n _ (by rw [hl]; omega)) ?_).cast List.singleton_append
      refine Reads.ret (f := ExtData.pskModes) (r := .ok xs) (Reads.readList 4 (fun m : PskKeyExchangeMode => [UInt8.ofNat m.code]) xs
        (fun x _ => Reads.code8 C04_psk_mode ?_) (by simp) h)
      rw [toNat_ofNat, Nat.mod_eq_of_lt (by cases x <;> decide)]
      exact C04_psk_mode.encode_table x
    · rw [List.length_cons, hl]; omega
  | share g key h =>
    refine ⟨_, _, (Appends.encAll (g := fun e : KeyShareEntry => be16 e.group.code ++ (be16 e.opaq.length ++ e.opaq)) _
      fun x _ => (Appends.pushU16 _).orEncodeError.seq (Appends.extend x.opaq).withU16Length.orEncodeError).withU16Length,
      rfl, ?_, ?_⟩
    · unfold keyShareCHParse
      refine (Reads.u16 _ (by simp [be16]; omega)).bind ?_
      refine Reads.ret (f := ExtData.keyShareCH) (r := .ok [⟨g, key⟩]) (Reads.readList 1
        (fun e : KeyShareEntry => be16 e.group.code ++ (be16 e.opaq.length ++ e.opaq)) [⟨g, key⟩]
        (fun x hx => ?_) (by simp [be16]) (by simp))
      simp only [List.mem_singleton] at hx
      subst hx
      unfold KeyShareEntry.parse
      refine (Reads.code16 C04_named_group (C04_named_group.encode_table g) (hng g)).bind ?_
      refine (Reads.u16 _ (by simp only; omega)).bind ?_
      exact Reads.ret (f := fun p : PB => KeyShareEntry.mk g p.buffer) (Reads.slice key)
    · simp [be16]; omega
  | name n h ha =>
    refine ⟨_, _, (Appends.encAll (g := fun n : Bytes => [0] ++ (be16 n.length ++ n)) [n]
      fun x _ => (Appends.push 0).orEncodeError.seq (Appends.extend x).withU16Length.orEncodeError).withU16Length,
      rfl, ?_, ?_⟩
    · unfold serverNameListParse
      refine (Reads.u16 _ (by simp [be16]; omega)).bind ?_
      refine Reads.ret (f := ExtData.serverNameList) (r := .ok [n]) (Reads.readList 1
        (fun n : Bytes => [0] ++ (be16 n.length ++ n)) [n] (fun x hx => ?_) (by simp) (by simp))
      simp only [List.mem_singleton] at hx
      subst hx
      unfold serverNameParse
      refine Reads.bind (a := ()) (bs := [0]) ?_ ?_
      · unfold nameTypeParse
        refine (Reads.bind (bs := [0]) (cs := []) (Reads.u8 0) ?_)
        exact Reads.pure ()
      · refine (Reads.u16 _ (by omega)).bind ?_
        refine (Reads.bind (bs := x) (cs := []) (Reads.slice x) ?_).cast (by simp)
        have hall : (x.all fun b => decide (b < 128)) = true := by simpa using ha
        simp only [PB.new, hall, if_true]
        exact Reads.pure x
    · simp [be16]; omega

/-- **C75 does not hold** for every extension: the protocol names of an ALPN extension are not read back
(`alpn.rs:24-43` returns the empty list), and reading a pre_shared_key extension panics (`pre_shared_key.rs:16-18`).  The
client reads no ClientHello, so neither happens in a connection. -/
theorem C75_refuted :
    (∃ bs, Appends (Ext.mk .alpn (.alpn [[104, 50]])).encode bs () ∧
      (extParse clientHelloGroup (PB.new bs)).1 = .ok ⟨.alpn, .alpn []⟩) ∧
    (∃ bs, Appends (Ext.mk .preSharedKey (.preSharedKeyCH [[1]] 32)).encode bs () ∧
      (extParse clientHelloGroup (PB.new bs)).1 = .panic) :=
  ⟨⟨_, alpn_appends [[104, 50]], by decide⟩, ⟨_, psk_appends [[1]] 32, by decide⟩⟩

/-- The part of C75 that holds: every other extension the client writes is written as some bytes, in every buffer with
room for them, and from those bytes, whatever surrounds them, the library reads the same extension and consumes it
exactly.  Missing: ALPN and pre_shared_key (`C75_refuted`). -/
theorem C75_partial (e : Ext) (h : ClientExt e) : ∃ bs, Appends e.encode bs () ∧
    ∀ A B : Bytes, extParse clientHelloGroup ⟨A ++ (bs ++ B), A.length⟩ =
      (.ok e, ⟨A ++ (bs ++ B), A.length + bs.length⟩) := by
  obtain ⟨bs, parser, h1, h2, h3, h4⟩ := clientExt_payload e h
  have hc : ∀ t : ExtensionType, t.code < 65536 := by intro t; cases t <;> decide
  refine ⟨(RawExt.mk e.ty.code bs).bytes, ?_, fun A B => ?_⟩
  · unfold Ext.encode RawExt.bytes
    exact (Appends.pushU16 _).orEncodeError.seq h1.withU16Length
  · rw [extParse_reads clientHelloGroup ⟨e.ty.code, bs⟩ (hc _) h4]
    unfold extStep
    have h5 : (parser (PB.new bs)).1 = .ok e.data := by simpa using reads_prefix (rest := []) h3
    simp only [C04_extension_type.decode_encode, h2, h5]

/-- The capacities in `ClientExt` are those of the parser: with one element more each list is refused. -/
theorem C75_capacity :
    (signatureAlgorithmsParse 25 (PB.new (be16 52 ++ (List.replicate 26 (be16 0x0807)).flatten))).1 = .err .insufficientSpace ∧
    (∀ t ∈ [ExtensionType.signatureAlgorithms, .signatureAlgorithmsCert], (clientHelloGroup t).map (fun parse =>
      (parse (PB.new (be16 52 ++ (List.replicate 26 (be16 0x0807)).flatten))).1) = some (.err .insufficientSpace)) ∧
    (clientHelloGroup .supportedGroups).map (fun parse =>
      (parse (PB.new (be16 28 ++ (List.replicate 14 (be16 23)).flatten))).1) = some (.err .insufficientSpace) ∧
    (clientHelloGroup .pskKeyExchangeModes).map (fun parse =>
      (parse (PB.new (5 :: List.replicate 5 1))).1) = some (.err .insufficientSpace) ∧
    (clientHelloGroup .supportedVersions).map (fun parse =>
      (parse (PB.new (4 :: (be16 0x0304 ++ be16 0x0304)))).1) = some (.err .insufficientSpace) ∧
    (clientHelloGroup .keyShare).map (fun parse =>
      (parse (PB.new (be16 10 ++ (List.replicate 2 (be16 23 ++ be16 1 ++ [7])).flatten))).1) = some (.err .insufficientSpace) ∧
    (clientHelloGroup .serverName).map (fun parse =>
      (parse (PB.new (be16 8 ++ (List.replicate 2 (0 :: (be16 1 ++ [97]))).flatten))).1) = some (.err .insufficientSpace) := by
  decide +kernel

example : ClientExt ⟨.keyShare, .keyShareCH [⟨.secp256r1, [4, 1, 2]⟩]⟩ := .share _ _ (by decide)
example : (extParse clientHelloGroup (PB.new ([0, 51, 0, 9, 0, 7, 0, 23, 0, 3, 4, 1, 2] ++ [99]))).1 =
    .ok ⟨.keyShare, .keyShareCH [⟨.secp256r1, [4, 1, 2]⟩]⟩ := by decide


/-! ## Nothing else is read as an extension -/

/-- Whenever `m` succeeds it has consumed bytes that stand in `R` to its result. -/
def ReadsOnly {ε α : Type} (m : M ε PB α) (R : α → Bytes → Prop) : Prop :=
  ∀ A bs a p', m ⟨A ++ bs, A.length⟩ = (.ok a, p') →
    ∃ x rest, bs = x ++ rest ∧ R a x ∧ p' = ⟨A ++ bs, A.length + x.length⟩

namespace ReadsOnly
variable {ε α β : Type}

theorem mono {m : M ε PB α} {R T : α → Bytes → Prop} (h : ReadsOnly m R) (hi : ∀ a x, R a x → T a x) : ReadsOnly m T := by
  intro A bs a p' e
  obtain ⟨x, rest, h1, h2, h3⟩ := h A bs a p' e
  exact ⟨x, rest, h1, hi _ _ h2, h3⟩

theorem bind {m : M ε PB α} {f : α → M ε PB β} {R : α → Bytes → Prop} {T : α → β → Bytes → Prop}
    (h : ReadsOnly m R) (hf : ∀ a, ReadsOnly (f a) (T a)) :
    ReadsOnly (m >>= f) (fun b z => ∃ a x y, R a x ∧ T a b y ∧ z = x ++ y) := by
  intro A bs b p' e
  obtain ⟨a, p1, e1, e2⟩ := M.bind_inv e
  obtain ⟨x, rest, rfl, h2, rfl⟩ := h A bs a p1 e1
  have e3 : f a ⟨(A ++ x) ++ rest, (A ++ x).length⟩ = (.ok b, p') := by
    simpa [List.append_assoc, List.length_append] using e2
  obtain ⟨y, rest', rfl, h4, rfl⟩ := hf a _ _ _ _ e3
  exact ⟨x ++ y, rest', by simp, ⟨a, x, y, h2, h4, rfl⟩, by simp [Nat.add_assoc]⟩

theorem pure (b : α) : ReadsOnly (ε := ε) (Pure.pure b) (fun a x => a = b ∧ x = []) := by
  intro A bs a p' e
  simp only [M.pure_apply, Prod.mk.injEq, Res.ok.injEq] at e
  exact ⟨[], bs, rfl, ⟨e.1.symm, rfl⟩, e.2.symm⟩

theorem fail (e : ε) (R : α → Bytes → Prop) : ReadsOnly (M.fail e : M ε PB α) R := by
  intro A bs a p' h
  simp [M.fail] at h

theorem lift (r : Res ε α) : ReadsOnly (M.lift r) (fun a x => r = .ok a ∧ x = []) := by
  intro A bs a p' e
  simp only [M.lift_apply, Prod.mk.injEq] at e
  exact ⟨[], bs, rfl, ⟨e.1, rfl⟩, e.2.symm⟩

theorem u8 : ReadsOnly PB.readU8 (fun n x => ∃ b : UInt8, n = b.toNat ∧ x = [b]) := by
  intro A bs a p' e
  cases bs with
  | nil => simp [PB.readU8] at e
  | cons b bs =>
    rw [readU8_mid] at e
    simp only [Prod.mk.injEq, Res.ok.injEq] at e
    exact ⟨[b], bs, rfl, ⟨b, e.1.symm, rfl⟩, e.2.symm⟩

theorem u16 : ReadsOnly PB.readU16 (fun n x => n < 65536 ∧ x = be16 n) := by
  intro A bs a p' e
  match bs, e with
  | [], e => simp [PB.readU16] at e; split at e <;> simp at e
  | [b], e => simp [PB.readU16] at e
  | b :: c :: bs, e =>
    have hb := b.toNat_lt
    have hc := c.toNat_lt
    have hn : b.toNat * 256 + c.toNat < 65536 := by omega
    have hx : b :: c :: bs = be16 (b.toNat * 256 + c.toNat) ++ bs := by
      have h1 : (b.toNat * 256 + c.toNat) / 256 = b.toNat := by omega
      have h2 : (b.toNat * 256 + c.toNat) % 256 = c.toNat := by omega
      simp only [be16, List.cons_append, List.nil_append, List.cons.injEq, and_true]
      constructor <;> (apply UInt8.toNat_inj.mp; simp; try omega)
    rw [hx, readU16_mid _ _ _ hn] at e
    simp only [Prod.mk.injEq, Res.ok.injEq] at e
    refine ⟨be16 a, bs, by rw [← e.1]; exact hx, ⟨by omega, rfl⟩, ?_⟩
    rw [← e.2, hx]
    simp [be16]

theorem slice (n : Nat) : ReadsOnly (PB.slice n) (fun d x => d = PB.new x ∧ x.length = n) := by
  intro A bs a p' e
  unfold PB.slice at e
  simp only [List.length_append, Nat.add_le_add_iff_left] at e
  split at e
  · next h =>
    simp only [Prod.mk.injEq, Res.ok.injEq, List.drop_left] at e
    refine ⟨bs.take n, bs.drop n, (List.take_append_drop _ _).symm, ⟨e.1.symm, by simp [h]⟩, ?_⟩
    rw [← e.2]
    simp [h]
  · simp at e

theorem code {table : List (α × Nat)} {co : α → Nat} {of : Nat → Option α} (h : Realises table co of) {read : P Nat}
    {R : Nat → Bytes → Prop} (hr : ReadsOnly read R) : ReadsOnly (parseCode read of) (fun a x => R (co a) x) := by
  unfold parseCode
  refine (hr.bind (T := fun n a x => co a = n ∧ x = []) fun n => ?_).mono ?_
  · split
    · next a ha =>
      refine (pure a).mono ?_
      rintro b x ⟨rfl, rfl⟩
      exact ⟨h.encode_decode _ _ ha, rfl⟩
    · exact fail _ _
  · rintro a z ⟨n, x, y, h1, ⟨rfl, rfl⟩, rfl⟩
    simpa using h1

/-- The loop of a list returns what it read, each item from the bytes that stand for it. -/
theorem loop {read : M ε PB α} {enc : α → Bytes} (h : ReadsOnly read (fun a x => x = enc a)) (cap : Nat) (full : ε) :
    ∀ (fuel : Nat) (acc : List α) (A bs : Bytes) (xs : List α) (p' : PB),
      PB.readListLoop cap full read fuel acc ⟨A ++ bs, A.length⟩ = (.ok xs, p') →
      ∃ ys, xs = acc ++ ys ∧ bs = ys.flatMap enc := by
  intro fuel
  induction fuel with
  | zero => intro acc A bs xs p' e; simp [PB.readListLoop, M.crash] at e
  | succ fuel ih =>
    intro acc A bs xs p' e
    unfold PB.readListLoop at e
    split at e
    · next hem =>
      have : bs = [] := by
        simp only [PB.isEmpty, List.length_append, beq_iff_eq] at hem
        exact List.length_eq_zero_iff.mp (by omega)
      simp only [Prod.mk.injEq, Res.ok.injEq] at e
      exact ⟨[], by simp [e.1], by simp [this]⟩
    · obtain ⟨a, p1, e1, e2⟩ := M.bind_inv e
      obtain ⟨x, rest, rfl, rfl, rfl⟩ := h A bs a p1 e1
      split at e2
      · have e3 : PB.readListLoop cap full read fuel (acc ++ [a]) ⟨(A ++ enc a) ++ rest, (A ++ enc a).length⟩ = (.ok xs, p') := by
          simpa [List.append_assoc, List.length_append] using e2
        obtain ⟨ys, rfl, rfl⟩ := ih _ _ _ _ _ e3
        exact ⟨a :: ys, by simp, by simp⟩
      · simp [M.fail] at e2

theorem readList {read : P α} {enc : α → Bytes} (h : ReadsOnly read (fun a x => x = enc a)) (cap n : Nat) :
    ReadsOnly (PB.readList cap n read) (fun xs x => x.length = n ∧ x = xs.flatMap enc) := by
  unfold PB.readList
  refine ((slice n).bind fun d => lift _).mono ?_
  rintro xs z ⟨d, x, y, ⟨rfl, h1⟩, ⟨h2, rfl⟩, rfl⟩
  rcases hl : PB.readListLoop cap ParseError.insufficientSpace read ((PB.new x).buffer.length + 1) [] (PB.new x) with ⟨r, p'⟩
  rw [hl] at h2
  simp only at h2
  subst h2
  obtain ⟨ys, rfl, h3⟩ := loop h cap _ _ [] [] x _ _ hl
  simp only [List.append_nil]
  exact ⟨h1, h3⟩

end ReadsOnly

/-- A list behind a 16-bit length. -/
theorem readsOnly_list16 {α : Type} {read : P α} {enc : α → Bytes} (h : ReadsOnly read (fun a x => x = enc a)) (cap : Nat)
    (f : List α → ExtData) :
    ReadsOnly (do let n ← PB.readU16; return f (← PB.readList cap n read))
      (fun d x => ∃ xs, d = f xs ∧ x = be16 (xs.flatMap enc).length ++ xs.flatMap enc) := by
  refine (ReadsOnly.u16.bind fun n => (ReadsOnly.readList h cap n).bind fun xs => ReadsOnly.pure (f xs)).mono ?_
  rintro d z ⟨n, x, y, ⟨_, rfl⟩, ⟨xs, x', y', ⟨h1, rfl⟩, ⟨rfl, rfl⟩, rfl⟩, rfl⟩
  exact ⟨xs, rfl, by simp [h1]⟩

/-- A list behind an 8-bit length. -/
theorem readsOnly_list8 {α : Type} {read : P α} {enc : α → Bytes} (h : ReadsOnly read (fun a x => x = enc a)) (cap : Nat)
    (f : List α → ExtData) :
    ReadsOnly (do let n ← PB.readU8; return f (← PB.readList cap n read))
      (fun d x => ∃ xs, d = f xs ∧ x = UInt8.ofNat (xs.flatMap enc).length :: xs.flatMap enc) := by
  refine (ReadsOnly.u8.bind fun n => (ReadsOnly.readList h cap n).bind fun xs => ReadsOnly.pure (f xs)).mono ?_
  rintro d z ⟨n, x, y, ⟨b, rfl, rfl⟩, ⟨xs, x', y', ⟨h1, rfl⟩, ⟨rfl, rfl⟩, rfl⟩, rfl⟩
  exact ⟨xs, rfl, by simp [h1]⟩

theorem readsOnly_name : ReadsOnly serverNameParse (fun n x => x = [0] ++ (be16 n.length ++ n) ∧ ∀ b ∈ n, b < 128) := by
  unfold serverNameParse nameTypeParse
  refine (ReadsOnly.bind (R := fun _ x => x = [0]) ?_ fun _ => ReadsOnly.u16.bind fun n => (ReadsOnly.slice n).bind
    (T := fun d a x => a = d.buffer ∧ x = [] ∧ ∀ b ∈ a, b < 128) fun d => ?_).mono ?_
  · refine (ReadsOnly.u8.bind (T := fun n _ x => n = 0 ∧ x = []) fun n => ?_).mono ?_
    · split
      · next h => exact (ReadsOnly.pure ()).mono fun _ _ hx => ⟨h, hx.2⟩
      · exact ReadsOnly.fail _ _
    · rintro _ z ⟨n, x, y, ⟨b, rfl, rfl⟩, ⟨h0, rfl⟩, rfl⟩
      have : b = 0 := UInt8.toNat_inj.mp h0
      simp [this]
  · split
    · next h =>
      refine (ReadsOnly.pure _).mono ?_
      rintro a x ⟨rfl, rfl⟩
      exact ⟨rfl, rfl, by simpa using h⟩
    · exact ReadsOnly.fail _ _
  · rintro a z ⟨_, x, y, rfl, ⟨n, x', y', ⟨_, rfl⟩, ⟨d, x'', y'', ⟨rfl, rfl⟩, ⟨rfl, rfl, h⟩, rfl⟩, rfl⟩, rfl⟩
    exact ⟨by simp, h⟩

theorem readsOnly_share : ReadsOnly KeyShareEntry.parse (fun e x => x = be16 e.group.code ++ (be16 e.opaq.length ++ e.opaq)) := by
  unfold KeyShareEntry.parse
  refine ((ReadsOnly.code C04_named_group ReadsOnly.u16).bind fun g => ReadsOnly.u16.bind fun n => (ReadsOnly.slice n).bind
    fun d => ReadsOnly.pure _).mono ?_
  rintro a z ⟨g, x, y, ⟨_, rfl⟩, ⟨n, x', y', ⟨_, rfl⟩, ⟨d, x'', y'', ⟨rfl, rfl⟩, ⟨rfl, rfl⟩, rfl⟩, rfl⟩, rfl⟩
  simp [PB.new]

theorem orErr_ok {α : Type} {m : P α} {e : TlsError} {p p' : PB} {a : α} (h : m.orErr e p = (.ok a, p')) :
    m p = (.ok a, p') := by
  simp only [P.orErr, M.mapErr] at h
  rcases hm : m p with ⟨r, q⟩
  rw [hm] at h
  cases r <;> simp_all [Res.mapErr]

/-- The payload of every extension of a ClientHello but ALPN: what is accepted begins with what is written for it. -/
theorem clientPayload_only (t : ExtensionType) (parser : P ExtData) (ht : clientHelloGroup t = some parser)
    (hne : t ≠ .alpn) (bs : Bytes) (d : ExtData) (hd : (parser (PB.new bs)).1 = .ok d) :
    ∃ payload rest, bs = payload ++ rest ∧ Appends d.encode payload () := by
  have key : ∀ {R : ExtData → Bytes → Prop}, ReadsOnly parser R → (∀ a x, R a x → Appends a.encode x ()) →
      ∃ payload rest, bs = payload ++ rest ∧ Appends d.encode payload () := by
    intro R h hi
    rcases hp : parser (PB.new bs) with ⟨r, p'⟩
    rw [hp] at hd
    simp only at hd
    subst hd
    obtain ⟨x, rest, h1, h2, _⟩ := h [] bs d p' hp
    exact ⟨x, rest, h1, hi _ _ h2⟩
  have hun : parser = unimplementedParse → ∃ payload rest, bs = payload ++ rest ∧ Appends d.encode payload () := by
    rintro rfl
    simp only [unimplementedParse, PB.new, Res.ok.injEq] at hd
    subst hd
    exact ⟨bs, [], by simp, Appends.extend bs⟩
  have hs : ∀ cap, ReadsOnly (signatureAlgorithmsParse cap) _ := fun cap => readsOnly_list16
    (enc := fun a : SignatureScheme => be16 a.code) ((ReadsOnly.code C04_signature_scheme ReadsOnly.u16).mono fun _ _ h => h.2)
    cap ExtData.signatureAlgorithms
  have hs' : ∀ a x, (∃ xs : List SignatureScheme, a = ExtData.signatureAlgorithms xs ∧
      x = be16 (xs.flatMap fun a => be16 a.code).length ++ xs.flatMap fun a => be16 a.code) → Appends a.encode x () := by
    rintro a x ⟨xs, rfl, rfl⟩
    exact (Appends.encAll (g := fun a : SignatureScheme => be16 a.code) _
      fun x _ => (Appends.pushU16 _).orEncodeError).withU16Length
  cases t <;> simp only [clientHelloGroup, Option.some.injEq, reduceCtorEq] at ht <;>
    first
      | exact absurd rfl hne
      | exact hun ht.symm
      | subst ht
  case serverName =>
    refine key (readsOnly_list16 (readsOnly_name.mono fun _ _ h => h.1) 1 ExtData.serverNameList) ?_
    rintro a x ⟨xs, rfl, rfl⟩
    exact (Appends.encAll (g := fun n : Bytes => [0] ++ (be16 n.length ++ n)) xs
      fun x _ => (Appends.push 0).orEncodeError.seq (Appends.extend x).withU16Length.orEncodeError).withU16Length
  case supportedVersions =>
    refine key (readsOnly_list8 (ReadsOnly.u16.mono fun _ _ h => h.2) 1 ExtData.supportedVersionsCH) ?_
    rintro a x ⟨xs, rfl, rfl⟩
    exact (Appends.encAll (g := be16) _ fun x _ => (Appends.pushU16 x).orEncodeError).withU8Length
  case signatureAlgorithms => exact key (hs 25) hs'
  case signatureAlgorithmsCert => exact key (hs 25) hs'
  case supportedGroups =>
    refine key (readsOnly_list16 (enc := fun a : NamedGroup => be16 a.code)
      ((ReadsOnly.code C04_named_group ReadsOnly.u16).mono fun _ _ h => h.2) 13 ExtData.supportedGroups) ?_
    rintro a x ⟨xs, rfl, rfl⟩
    exact (Appends.encAll (g := fun a : NamedGroup => be16 a.code) _
      fun x _ => (Appends.pushU16 _).orEncodeError).withU16Length
  case keyShare =>
    refine key (readsOnly_list16 readsOnly_share 1 ExtData.keyShareCH) ?_
    rintro a x ⟨xs, rfl, rfl⟩
    exact (Appends.encAll (g := fun e : KeyShareEntry => be16 e.group.code ++ (be16 e.opaq.length ++ e.opaq)) _
      fun x _ => (Appends.pushU16 _).orEncodeError.seq (Appends.extend x.opaq).withU16Length.orEncodeError).withU16Length
  case preSharedKey => simp [preSharedKeyCHParse, M.crash] at hd
  case pskKeyExchangeModes =>
    refine key (readsOnly_list8 (enc := fun m : PskKeyExchangeMode => [UInt8.ofNat m.code])
      ((ReadsOnly.code C04_psk_mode ReadsOnly.u8).mono ?_) 4 ExtData.pskModes) ?_
    · rintro a x ⟨b, h, rfl⟩
      simp [h]
    · rintro a x ⟨xs, rfl, rfl⟩
      exact (Appends.encAll (g := fun m : PskKeyExchangeMode => [UInt8.ofNat m.code]) _
        fun _ _ => (Appends.push _).orEncodeError).withU8Length
  case maxFragmentLength =>
    refine key (((ReadsOnly.code C04_max_fragment_length ReadsOnly.u8).bind fun m => ReadsOnly.pure
      (ExtData.maxFragmentLength m))) ?_
    rintro a z ⟨m, x, y, ⟨b, h, rfl⟩, ⟨rfl, rfl⟩, rfl⟩
    have := (Appends.push (UInt8.ofNat m.code)).orEncodeError
    simp only [h, UInt8.ofNat_toNat] at this
    simpa [ExtData.encode, h] using this

/-- The converse of C75: the library reads nothing else as that extension.  Whenever its ClientHello extension parser
returns an extension other than ALPN, the bytes consumed are the code of its type and, behind a length, data beginning
with exactly the bytes the client writes for it; what follows in the data is not looked at. -/
theorem C75_only (A bs : Bytes) (e : Ext) (p' : PB) (hne : e.ty ≠ .alpn)
    (h : extParse clientHelloGroup ⟨A ++ bs, A.length⟩ = (.ok e, p')) :
    ∃ payload rest tail, Appends e.data.encode payload () ∧
      bs = be16 e.ty.code ++ (be16 (payload ++ rest).length ++ (payload ++ (rest ++ tail))) ∧
      p' = ⟨A ++ bs, A.length + (4 + (payload ++ rest).length)⟩ := by
  unfold extParse at h
  rcases hty : ExtensionType.parse ⟨A ++ bs, A.length⟩ with ⟨rt, p1⟩
  rw [hty] at h
  simp only at h
  obtain ⟨n, p2, e1, h⟩ := M.bind_inv h
  obtain ⟨d, p3, e2, h⟩ := M.bind_inv h
  cases rt with
  | panic => simp [M.crash] at h
  | err x => cases x <;> simp [M.fail] at h
  | ok t =>
    obtain ⟨x, bs1, rfl, ⟨-, rfl⟩, rfl⟩ := ReadsOnly.code C04_extension_type ReadsOnly.u16 A bs t p1 hty
    have e1' : PB.readU16 ⟨(A ++ be16 t.code) ++ bs1, (A ++ be16 t.code).length⟩ = (.ok n, p2) := by
      have := orErr_ok e1
      simpa [List.append_assoc, List.length_append] using this
    obtain ⟨x, bs2, rfl, ⟨-, rfl⟩, rfl⟩ := ReadsOnly.u16 _ _ _ _ e1'
    have e2' := orErr_ok e2
    obtain ⟨x, bs3, rfl, ⟨rfl, rfl⟩, rfl⟩ := ReadsOnly.slice _ ((A ++ be16 t.code) ++ be16 n) bs2 d p3 (by
      simpa [List.append_assoc, List.length_append, Nat.add_assoc] using e2')
    simp only at h
    cases hg : clientHelloGroup t with
    | none => rw [hg] at h; simp [M.fail] at h
    | some parser =>
      rw [hg] at h
      simp only at h
      cases hp : (parser (PB.new x)).1 with
      | err _ => rw [hp] at h; simp [M.fail] at h
      | panic => rw [hp] at h; simp [M.crash] at h
      | ok v =>
        rw [hp] at h
        simp only [M.pure_apply, Prod.mk.injEq, Res.ok.injEq] at h
        obtain ⟨rfl, rfl⟩ := h
        obtain ⟨payload, rest, rfl, hw⟩ := clientPayload_only t parser hg hne x v hp
        refine ⟨payload, rest, bs3, hw, by simp, ?_⟩
        simp only [List.append_assoc, List.length_append, PB.mk.injEq, true_and]
        simp [be16]
        omega

example : extParse clientHelloGroup ⟨[7] ++ [0, 0, 0, 8, 0, 5, 0, 0, 2, 97, 98, 99, 1], 1⟩ =
    (.ok ⟨.serverName, .serverNameList [[97, 98]]⟩, ⟨[7, 0, 0, 0, 8, 0, 5, 0, 0, 2, 97, 98, 99, 1], 13⟩) := by decide

end ETls
