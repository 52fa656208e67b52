import Verif.Spec.ClientMessages
import Verif.Proofs.Encode

/-! # The ClientHello grammar decodes its own encoding -/

namespace ETls.Spec

/-- `d` decodes `bs` to `a` whatever follows. -/
def Decodes {α : Type} (d : Dec α) (bs : Bytes) (a : α) : Prop := ∀ r, d (bs ++ r) = some (a, r)

theorem dU8_dec (n : Nat) (h : n < 256) : Decodes dU8 [UInt8.ofNat n] n := by
  intro r; simp [dU8]; omega

theorem dU16_dec (n : Nat) (h : n < 65536) : Decodes dU16 (u16 n) n := by
  intro r; simp [dU16, u16]; omega

theorem dU24_dec (n : Nat) (h : n < 16777216) : Decodes dU24 (u24 n) n := by
  intro r; simp [dU24, u24]; omega

theorem dU32_dec (n : Nat) (h : n < 4294967296) : Decodes dU32 (u32 n) n := by
  intro r; simp [dU32, u32]; omega

theorem dBytes_dec (bs : Bytes) (n : Nat) (h : bs.length = n) : Decodes (dBytes n) bs bs := by
  intro r; subst h
  simp [dBytes]

theorem dVec8_dec (bs : Bytes) (h : bs.length < 256) : Decodes (dVec dU8) (vec8 bs) bs := by
  intro r
  have h1 := dU8_dec bs.length h (bs ++ r)
  simp only [List.singleton_append] at h1
  simp only [dVec, vec8, List.cons_append, h1, Option.bind_some, dBytes_dec bs _ rfl r]

theorem dVec16_dec (bs : Bytes) (h : bs.length < 65536) : Decodes (dVec dU16) (vec16 bs) bs := by
  intro r
  simp only [dVec, vec16, List.append_assoc, dU16_dec _ h (bs ++ r), Option.bind_some, dBytes_dec bs _ rfl r]

theorem dVec24_dec (bs : Bytes) (h : bs.length < 16777216) : Decodes (dVec dU24) (vec24 bs) bs := by
  intro r
  simp only [dVec, vec24, List.append_assoc, dU24_dec _ h (bs ++ r), Option.bind_some, dBytes_dec bs _ rfl r]

theorem whole_dec {α : Type} {d : Dec α} {bs : Bytes} {a : α} (h : Decodes d bs a) : dWhole (d bs) = some a := by
  have := h []
  rw [List.append_nil] at this
  simp [dWhole, this]

theorem dAllFuel_dec {α β : Type} {d : Dec β} (enc : α → Bytes) (val : α → β) (xs : List α)
    (h : ∀ x ∈ xs, Decodes d (enc x) (val x) ∧ enc x ≠ []) (n : Nat) (hn : xs.length ≤ n) :
    dAllFuel d n (xs.flatMap enc) = some (xs.map val) := by
  induction xs generalizing n with
  | nil => simp [dAllFuel]
  | cons x xs ih =>
    obtain ⟨n, rfl⟩ : ∃ m, n = m + 1 := ⟨n - 1, by simp at hn; omega⟩
    obtain ⟨h1, h2⟩ := h x List.mem_cons_self
    have h1 := h1 (xs.flatMap enc)
    obtain ⟨b, bs, hb⟩ := List.exists_cons_of_ne_nil h2
    rw [List.flatMap_cons, hb, List.cons_append, dAllFuel, ← List.cons_append, ← hb, h1]
    · simp only [Option.bind_some, ih (fun y hy => h y (List.mem_cons_of_mem _ hy)) n (by simpa using hn),
        Option.map_some, List.map_cons]
    · intro h; cases h

theorem length_le_flatMap {α : Type} (enc : α → Bytes) (xs : List α) (h : ∀ x ∈ xs, enc x ≠ []) :
    xs.length ≤ (xs.flatMap enc).length := by
  induction xs with
  | nil => simp
  | cons x xs ih =>
    have h1 := List.length_pos_iff.2 (h x List.mem_cons_self)
    have h2 := ih fun y hy => h y (List.mem_cons_of_mem _ hy)
    simp only [List.length_cons, List.flatMap_cons, List.length_append]
    omega

theorem dAll_dec {α β : Type} {d : Dec β} (enc : α → Bytes) (val : α → β) (xs : List α)
    (h : ∀ x ∈ xs, Decodes d (enc x) (val x) ∧ enc x ≠ []) : dAll d (xs.flatMap enc) = some (xs.map val) :=
  dAllFuel_dec enc val xs h _ (length_le_flatMap enc xs fun x hx => (h x hx).2)

theorem dAll_dec' {α : Type} {d : Dec α} (enc : α → Bytes) (xs : List α)
    (h : ∀ x ∈ xs, Decodes d (enc x) x ∧ enc x ≠ []) : dAll d (xs.flatMap enc) = some xs := by
  simpa using dAll_dec enc id xs h

theorem u16_ne (n : Nat) : u16 n ≠ [] := by simp [u16]

theorem dAll_u16 (xs : List Nat) (h : ∀ x ∈ xs, x < 65536) : dAll dU16 (xs.flatMap u16) = some xs :=
  dAll_dec' u16 xs fun x hx => ⟨dU16_dec x (h x hx), u16_ne x⟩

theorem map_eq_flatMap (xs : List Nat) : xs.map UInt8.ofNat = xs.flatMap fun x => [UInt8.ofNat x] := by
  induction xs with
  | nil => rfl
  | cons x xs ih => simp [ih]

theorem dAll_u8 (xs : List Nat) (h : ∀ x ∈ xs, x < 256) : dAll dU8 (xs.map UInt8.ofNat) = some xs := by
  rw [map_eq_flatMap]
  exact dAll_dec' _ xs fun x hx => ⟨dU8_dec x (h x hx), by simp⟩

theorem dShare_dec (s : Nat × Bytes) (h1 : s.1 < 65536) (h2 : s.2.length < 65536) :
    Decodes dShare (u16 s.1 ++ vec16 s.2) s := by
  intro r
  simp only [dShare, List.append_assoc, dU16_dec _ h1 (vec16 s.2 ++ r), Option.bind_some, dVec16_dec _ h2 r,
    Option.map_some]

theorem dServerName_dec (n : Bytes) (h : n.length < 65536) : Decodes dServerName (0 :: vec16 n) n := by
  intro r
  simp [dServerName, dU8, dVec16_dec _ h r]

theorem dIdentity_dec (i : Bytes × Nat) (h1 : i.1.length < 65536) (h2 : i.2 < 4294967296) :
    Decodes dIdentity (vec16 i.1 ++ u32 i.2) i := by
  intro r
  simp only [dIdentity, List.append_assoc, dVec16_dec _ h1 (u32 i.2 ++ r), Option.bind_some, dU32_dec _ h2 r,
    Option.map_some]

theorem length_flatMap_mem {α : Type} (enc : α → Bytes) (xs : List α) (x : α) (hx : x ∈ xs) :
    (enc x).length ≤ (xs.flatMap enc).length := by
  induction xs with
  | nil => cases hx
  | cons y xs ih =>
    simp only [List.flatMap_cons, List.length_append]
    rcases List.mem_cons.1 hx with rfl | hx
    · omega
    · have := ih hx; omega

theorem vec16_length (bs : Bytes) : (vec16 bs).length = bs.length + 2 := by simp [vec16, u16]
theorem vec8_length (bs : Bytes) : (vec8 bs).length = bs.length + 1 := by simp [vec8]
theorem vec24_length (bs : Bytes) : (vec24 bs).length = bs.length + 3 := by simp [vec24, u24]

theorem ChExt.data_dec (e : ChExt) (h : e.Fits) (hl : e.data.length < 65536) : dExtData e.type e.data = some e := by
  cases e with
  | supportedVersions vs =>
    simp [dExtData, ChExt.type, ChExt.data, whole_dec (dVec8_dec _ h.2), dAll_u16 _ h.1]
  | signatureAlgorithms xs =>
    simp only [ChExt.data, vec16_length] at hl
    simp [dExtData, ChExt.type, ChExt.data, whole_dec (dVec16_dec (xs.flatMap u16) (by omega)), dAll_u16 xs h]
  | maxFragmentLength c =>
    simp [dExtData, ChExt.type, ChExt.data, whole_dec (dU8_dec c h)]
  | supportedGroups xs =>
    simp only [ChExt.data, vec16_length] at hl
    simp [dExtData, ChExt.type, ChExt.data, whole_dec (dVec16_dec (xs.flatMap u16) (by omega)), dAll_u16 xs h]
  | pskKeyExchangeModes ms =>
    simp [dExtData, ChExt.type, ChExt.data, whole_dec (dVec8_dec (ms.map UInt8.ofNat) (by simpa using h.2)), dAll_u8 _ h.1]
  | keyShare ss =>
    simp only [ChExt.data, vec16_length] at hl
    have hd := dAll_dec' (d := dShare) (fun s : Nat × Bytes => u16 s.1 ++ vec16 s.2) ss fun s hs =>
      ⟨dShare_dec s (h s hs) (by
        have := length_flatMap_mem (fun s : Nat × Bytes => u16 s.1 ++ vec16 s.2) ss s hs
        simp only [List.length_append, vec16_length] at this; omega), by simp [u16]⟩
    simp only [dExtData, ChExt.type, ChExt.data, whole_dec (dVec16_dec (ss.flatMap fun s : Nat × Bytes => u16 s.1 ++ vec16 s.2)
      (by omega)), Option.bind_some, hd,
      Option.map_some]
  | serverName ns =>
    simp only [ChExt.data, vec16_length] at hl
    have hd := dAll_dec' (d := dServerName) (fun n : Bytes => 0 :: vec16 n) ns fun s hs =>
      ⟨dServerName_dec s (by
        have := length_flatMap_mem (fun n : Bytes => 0 :: vec16 n) ns s hs
        simp only [List.length_cons, vec16_length] at this; omega), by simp⟩
    simp only [dExtData, ChExt.type, ChExt.data, whole_dec (dVec16_dec (ns.flatMap fun n : Bytes => 0 :: vec16 n)
      (by omega)), Option.bind_some, hd,
      Option.map_some]
  | alpn ps =>
    simp only [ChExt.data, vec16_length] at hl
    have hd := dAll_dec' (d := dVec dU8) vec8 ps fun s hs => ⟨dVec8_dec s (h s hs), by simp [vec8]⟩
    simp only [dExtData, ChExt.type, ChExt.data, whole_dec (dVec16_dec (ps.flatMap vec8)
      (by omega)), Option.bind_some, hd,
      Option.map_some]
  | preSharedKey ids bs =>
    simp only [ChExt.data, vec16_length, List.length_append] at hl
    have hd := dAll_dec' (d := dIdentity) (fun i : Bytes × Nat => vec16 i.1 ++ u32 i.2) ids fun s hs =>
      ⟨dIdentity_dec s (by
        have := length_flatMap_mem (fun i : Bytes × Nat => vec16 i.1 ++ u32 i.2) ids s hs
        simp only [List.length_append, vec16_length] at this; omega) (h.1 s hs), by simp [vec16, u16]⟩
    have hb := dAll_dec' (d := dVec dU8) vec8 bs fun s hs => ⟨dVec8_dec s (h.2 s hs), by simp [vec8]⟩
    simp only [dExtData, ChExt.type, ChExt.data, dVec16_dec (ids.flatMap fun i : Bytes × Nat => vec16 i.1 ++ u32 i.2)
      (by omega) _, Option.bind_some, whole_dec (dVec16_dec (bs.flatMap vec8) (by omega)), hd, hb, Option.map_some]

theorem ChExt.type_lt (e : ChExt) : e.type < 65536 := by
  cases e <;> simp [ChExt.type]

theorem ChExt.bytes_dec (e : ChExt) (h : e.Fits) (hl : e.data.length < 65536) : Decodes dExt e.bytes e := by
  intro r
  simp only [dExt, ChExt.bytes, List.append_assoc, dU16_dec _ e.type_lt (vec16 e.data ++ r), Option.bind_some,
    dVec16_dec _ hl r, e.data_dec h hl, Option.map_some]

theorem ChMsg.body_dec (m : ChMsg) (h : m.Fits) : dChBody m.body = some m := by
  have hx := dAll_dec' (d := dExt) ChExt.bytes m.extensions fun e he => ⟨ChExt.bytes_dec e (h.extensions e he) (by
    have h1 := length_flatMap_mem ChExt.bytes m.extensions e he
    have h2 := h.extensionsLength
    simp only [ChExt.bytes, List.length_append, vec16_length] at h1 h2; omega), by simp [ChExt.bytes, u16]⟩
  simp only [dChBody, ChMsg.body, List.append_assoc, dU16_dec _ h.version _, Option.bind_some,
    dBytes_dec _ _ h.random _, dVec8_dec _ h.sessionId _, dVec16_dec _ h.suites.2 _,
    dVec8_dec (m.compression.map UInt8.ofNat) (by simpa using h.compression.2) _,
    whole_dec (dVec16_dec _ h.extensionsLength), dAll_u16 _ h.suites.1, dAll_u8 _ h.compression.1, hx, Option.map_some]

theorem ChMsg.body_length (m : ChMsg) (h : m.Fits) : m.body.length < 200000 := by
  have h1 := h.random; have h2 := h.sessionId; have h3 := h.suites.2; have h4 := h.compression.2
  have h5 := h.extensionsLength
  simp only [ChMsg.body, List.length_append, vec16_length, vec8_length, List.length_map]
  simp only [u16, List.length_cons, List.length_nil]
  omega

/-- The grammar reads back every well-sized ClientHello. -/
theorem ChMsg.bytes_dec (m : ChMsg) (h : m.Fits) : dClientHello m.bytes = some m := by
  have hl := m.body_length h
  simp [dClientHello, ChMsg.bytes, handshake, dU8, whole_dec (dVec24_dec m.body (by omega)), m.body_dec h]

end ETls.Spec
