import Verif.Spec.CodePoints
import Verif.Proofs.Encode

/-! # C04 (code points) and C08 (alerts) -/

namespace ETls
open Spec

theorem realises_of {α : Type} {table : List (α × Nat)} {code : α → Nat} {of : Nat → Option α}
    (h1 : ∀ x, (x, code x) ∈ table) (h2 : ∀ p ∈ table, of p.2 = some p.1)
    (h3 : ∀ n x, of n = some x → code x = n) : Realises table code of where
  encode_table := h1
  decode_encode := fun x => h2 _ (h1 x)
  encode_decode := h3
  reject := fun n hn => by
    cases h : of n with
    | none => rfl
    | some x =>
      have := h3 n x h
      exact absurd (this ▸ h1 x) (hn x)
  accept := fun n x hx => h2 _ hx

/-- A table lookup written as a `match` on numbers is split into its cases. -/
macro "table_inv" f:ident : tactic =>
  `(tactic| (intro n x h; unfold $f at h; split at h <;> first | (cases h; done) | (injection h with h; subst h; rfl)))

/-- **C04** content types. -/
theorem C04_content_type : Realises contentTypes ContentType.code ContentType.of :=
  realises_of (by intro x; cases x <;> decide) (by decide) (by table_inv ContentType.of)

/-- **C04** alert levels. -/
theorem C04_alert_level : Realises alertLevels AlertLevel.code AlertLevel.of :=
  realises_of (by intro x; cases x <;> decide) (by decide) (by table_inv AlertLevel.of)

/-- **C04** alert descriptions. -/
theorem C04_alert_description : Realises alertDescriptions AlertDescription.code AlertDescription.of :=
  realises_of (by intro x; cases x <;> decide) (by decide) (by table_inv AlertDescription.of)

/-- **C04** handshake types. -/
theorem C04_handshake_type : Realises handshakeTypes HandshakeType.code HandshakeType.of :=
  realises_of (by intro x; cases x <;> decide) (by decide) (by table_inv HandshakeType.of)

/-- **C04** extension types. -/
theorem C04_extension_type : Realises extensionTypes ExtensionType.code ExtensionType.of :=
  realises_of (by intro x; cases x <;> decide) (by decide) (by table_inv ExtensionType.of)

/-- **C04** named groups. -/
theorem C04_named_group : Realises namedGroups NamedGroup.code NamedGroup.of :=
  realises_of (by intro x; cases x <;> decide) (by decide) (by table_inv NamedGroup.of)

/-- **C04** signature schemes. -/
theorem C04_signature_scheme : Realises signatureSchemes SignatureScheme.code SignatureScheme.of :=
  realises_of (by intro x; cases x <;> decide) (by decide) (by table_inv SignatureScheme.of)

/-- **C04** cipher suites. -/
theorem C04_cipher_suite : Realises cipherSuites CipherSuite.code CipherSuite.of :=
  realises_of (by intro x; cases x <;> decide) (by decide) (by table_inv CipherSuite.of)

/-- **C04** maximum fragment lengths. -/
theorem C04_max_fragment_length : Realises maxFragmentLengths MaxFragmentLength.code MaxFragmentLength.of :=
  realises_of (by intro x; cases x <;> decide) (by decide) (by table_inv MaxFragmentLength.of)

/-- **C04** PSK key exchange modes. -/
theorem C04_psk_mode : Realises pskModes PskKeyExchangeMode.code PskKeyExchangeMode.of :=
  realises_of (by intro x; cases x <;> decide) (by decide) (by table_inv PskKeyExchangeMode.of)

example : AlertDescription.of 47 = some .illegalParameter ∧ AlertDescription.of 48 ≠ some .illegalParameter := by decide
example : SignatureScheme.of 0x0403 = some .ecdsaSecp256r1Sha256 ∧ SignatureScheme.of 0x0402 = none := by decide

/-- Distinct values have distinct codes. -/
theorem Spec.Realises.injective {α : Type} {table : List (α × Nat)} {code : α → Nat} {of : Nat → Option α}
    (h : Realises table code of) : ∀ x y, code x = code y → x = y := by
  intro x y hxy
  have h1 := h.decode_encode x
  rw [hxy, h.decode_encode y] at h1
  exact (Option.some.inj h1).symm

/-- **C04** on the wire, 16-bit codes: reading the two bytes of a code yields the value, reading anything else
fails and yields no value. -/
theorem C04_wire_u16 {α : Type} {table : List (α × Nat)} {code : α → Nat} {of : Nat → Option α}
    (h : Realises table code of) (A B : Bytes) (n : Nat) (hn : n < 65536) :
    (∀ x, (x, n) ∈ table →
      parseCode PB.readU16 of ⟨A ++ (be16 n ++ B), A.length⟩ = (.ok x, ⟨A ++ (be16 n ++ B), A.length + 2⟩)) ∧
    ((∀ x, (x, n) ∉ table) →
      (parseCode PB.readU16 of ⟨A ++ (be16 n ++ B), A.length⟩).1 = .err .invalidData) := by
  constructor
  · intro x hx
    unfold parseCode
    rw [M.bind_ok (readU16_mid A B n hn), h.accept n x hx]
    rfl
  · intro hx
    unfold parseCode
    rw [M.bind_ok (readU16_mid A B n hn), h.reject n hx]
    rfl

/-- **C04** on the wire, 8-bit codes. -/
theorem C04_wire_u8 {α : Type} {table : List (α × Nat)} {code : α → Nat} {of : Nat → Option α}
    (h : Realises table code of) (A B : Bytes) (b : UInt8) :
    (∀ x, (x, b.toNat) ∈ table →
      parseCode PB.readU8 of ⟨A ++ b :: B, A.length⟩ = (.ok x, ⟨A ++ b :: B, A.length + 1⟩)) ∧
    ((∀ x, (x, b.toNat) ∉ table) →
      (parseCode PB.readU8 of ⟨A ++ b :: B, A.length⟩).1 = .err .invalidData) := by
  constructor
  · intro x hx
    unfold parseCode
    rw [M.bind_ok (readU8_mid A B b), h.accept _ x hx]
    rfl
  · intro hx
    unfold parseCode
    rw [M.bind_ok (readU8_mid A B b), h.reject _ hx]
    rfl

example : (NamedGroup.parse ⟨[9, 0, 23, 9], 1⟩) = (.ok .secp256r1, ⟨[9, 0, 23, 9], 3⟩) := by decide
example : (HandshakeType.parse ⟨[3], 0⟩).1 = .err .invalidData := by decide

/-! ## C08 -/

theorem alert_code_lt (a : Alert) : a.level.code < 256 ∧ a.description.code < 256 := by
  obtain ⟨l, d⟩ := a
  constructor
  · show l.code < 256
    cases l <;> decide
  · show d.code < 256
    cases d <;> decide

theorem alert_appends (a : Alert) :
    Appends a.encode [UInt8.ofNat a.level.code, UInt8.ofNat a.description.code] () := by
  unfold Alert.encode
  exact (Appends.push _).orEncodeError.seq (Appends.push _).orEncodeError

/-- **C08** encoding an alert into a buffer with room for it and decoding what was appended gives it back. -/
theorem C08_round_trip (a : Alert) (buf : Bytes) (o l : Nat) (h : o + l + 2 ≤ buf.length) :
    ∃ c', a.encode ⟨buf, o, l⟩ = (.ok (), c') ∧ c'.offset = o ∧ c'.len = l + 2 ∧
      (Alert.parse ⟨c'.asSlice, l⟩).1 = .ok a := by
  have hsplit : buf = buf.take (o + l) ++ buf.drop (o + l) := (List.take_append_drop _ _).symm
  have hA : (buf.take (o + l)).length = o + l := by simp; omega
  obtain ⟨h1, _⟩ := alert_appends a o l (buf.take (o + l)) (buf.drop (o + l)) hA
  have := h1 (by simp; omega)
  rw [← hsplit] at this
  refine ⟨_, this, rfl, rfl, ?_⟩
  simp only [CB.asSlice, List.length_cons, List.length_nil, Nat.zero_add, Nat.reduceAdd]
  have hd : (buf.take (o + l) ++ ([UInt8.ofNat a.level.code, UInt8.ofNat a.description.code] ++
      List.drop 2 (buf.drop (o + l)))).drop o =
      (buf.take (o + l)).drop o ++ ([UInt8.ofNat a.level.code, UInt8.ofNat a.description.code] ++
      List.drop 2 (buf.drop (o + l))) := by
    rw [List.drop_append_of_le_length (by omega)]
  rw [hd]
  have hl : ((buf.take (o + l)).drop o).length = l := by simp; omega
  rw [show (l + 2) = ((buf.take (o + l)).drop o).length + 2 by omega, List.take_length_add_append]
  simp only [List.cons_append, List.nil_append, List.take_succ_cons, List.take_zero]
  generalize (buf.take (o + l)).drop o = A at *
  subst hl
  unfold Alert.parse
  obtain ⟨hc1, hc2⟩ := alert_code_lt a
  have r1 : (PB.readU8.toT) ⟨A ++ [UInt8.ofNat a.level.code, UInt8.ofNat a.description.code], A.length⟩ =
      (.ok a.level.code, ⟨A ++ [UInt8.ofNat a.level.code, UInt8.ofNat a.description.code], A.length + 1⟩) := by
    have := readU8_mid A [UInt8.ofNat a.description.code] (UInt8.ofNat a.level.code)
    simp only [P.toT, M.mapErr]
    rw [this, toNat_ofNat, Nat.mod_eq_of_lt hc1]
    rfl
  rw [M.bind_ok r1]
  have r2 : (PB.readU8.toT) ⟨A ++ [UInt8.ofNat a.level.code, UInt8.ofNat a.description.code], A.length + 1⟩ =
      (.ok a.description.code,
        ⟨A ++ [UInt8.ofNat a.level.code, UInt8.ofNat a.description.code], A.length + 2⟩) := by
    have := readU8_mid (A ++ [UInt8.ofNat a.level.code]) [] (UInt8.ofNat a.description.code)
    simp only [List.append_assoc, List.cons_append, List.nil_append, List.length_append, List.length_cons,
      List.length_nil, Nat.zero_add] at this
    simp only [P.toT, M.mapErr]
    rw [this, toNat_ofNat, Nat.mod_eq_of_lt hc2]
    rfl
  rw [M.bind_ok r2, C04_alert_level.decode_encode, C04_alert_description.decode_encode]
  rfl

example : (Alert.encode ⟨.fatal, .illegalParameter⟩ ⟨[7, 7, 7, 7], 1, 1⟩) = (.ok (), ⟨[7, 7, 2, 47], 1, 3⟩) := by
  decide

/-- **C08** an alert body is decoded to an alert only if its first two bytes are the codes of a level and a
description of the tables; everything else is rejected with an error. -/
theorem C08_reject (bs : Bytes) :
    (∀ a, (Alert.parse (PB.new bs)).1 = .ok a →
      ∃ x y rest, bs = x :: y :: rest ∧ (a.level, x.toNat) ∈ alertLevels ∧
        (a.description, y.toNat) ∈ alertDescriptions) ∧
    (∀ x y rest, bs = x :: y :: rest →
      ((∀ l, (l, x.toNat) ∉ alertLevels) ∨ (∀ d, (d, y.toNat) ∉ alertDescriptions)) →
      (Alert.parse (PB.new bs)).1 = .err .decodeError) ∧
    (bs.length < 2 → (Alert.parse (PB.new bs)).1 = .err (.parseError .insufficientBytes)) := by
  have key : ∀ x y rest, (Alert.parse (PB.new (x :: y :: rest))).1 =
      match AlertLevel.of x.toNat with
      | none => .err .decodeError
      | some l => match AlertDescription.of y.toNat with
        | none => .err .decodeError
        | some d => .ok ⟨l, d⟩ := by
    intro x y rest
    unfold Alert.parse
    have r1 : (PB.readU8.toT) (PB.new (x :: y :: rest)) = (.ok x.toNat, ⟨x :: y :: rest, 1⟩) := by
      simp [P.toT, M.mapErr, PB.readU8, PB.new, Res.mapErr]
    have r2 : (PB.readU8.toT) ⟨x :: y :: rest, 1⟩ = (.ok y.toNat, ⟨x :: y :: rest, 2⟩) := by
      simp [P.toT, M.mapErr, PB.readU8, Res.mapErr]
    rw [M.bind_ok r1, M.bind_ok r2]
    cases AlertLevel.of x.toNat with
    | none => rfl
    | some l => cases AlertDescription.of y.toNat <;> rfl
  have short : bs.length < 2 → (Alert.parse (PB.new bs)).1 = .err (.parseError .insufficientBytes) := by
    intro h
    unfold Alert.parse
    match bs, h with
    | [], _ => simp [M.bind_def, P.toT, M.mapErr, PB.readU8, PB.new, Res.mapErr, TlsError.ofParse]
    | [x], _ => simp [M.bind_def, P.toT, M.mapErr, PB.readU8, PB.new, Res.mapErr, TlsError.ofParse]
  refine ⟨fun a ha => ?_, fun x y rest hbs hbad => ?_, short⟩
  · match bs with
    | [] => rw [short (by simp)] at ha; cases ha
    | [x] => rw [short (by simp)] at ha; cases ha
    | x :: y :: rest =>
      refine ⟨x, y, rest, rfl, ?_⟩
      rw [key] at ha
      cases hl : AlertLevel.of x.toNat with
      | none => rw [hl] at ha; cases ha
      | some l =>
        rw [hl] at ha
        cases hd : AlertDescription.of y.toNat with
        | none => rw [hd] at ha; cases ha
        | some d =>
          rw [hd] at ha
          injection ha with ha
          subst ha
          have e1 := C04_alert_level.encode_decode _ _ hl
          have e2 := C04_alert_description.encode_decode _ _ hd
          exact ⟨e1 ▸ C04_alert_level.encode_table l, e2 ▸ C04_alert_description.encode_table d⟩
  · subst hbs
    rw [key]
    rcases hbad with h | h
    · rw [C04_alert_level.reject _ h]
    · rw [C04_alert_description.reject _ h]
      cases AlertLevel.of x.toNat <;> rfl

example : (Alert.parse (PB.new [2, 40])).1 = .ok ⟨.fatal, .handshakeFailure⟩ := by decide
example : (Alert.parse (PB.new [3, 40])).1 = .err .decodeError := by decide

end ETls
