import Verif.Props.Reader

/-! # The wire format of the server's messages is unambiguous -/

namespace ETls.Spec

theorem be16_app {a b : Nat} {x y : Bytes} (ha : a < 65536) (hb : b < 65536) (h : be16 a ++ x = be16 b ++ y) :
    a = b ∧ x = y := by
  simp only [be16, List.cons_append, List.nil_append, List.cons.injEq] at h
  obtain ⟨h1, h2, h3⟩ := h
  have h1 := congrArg UInt8.toNat h1
  have h2 := congrArg UInt8.toNat h2
  simp only [UInt8.toNat_ofNat'] at h1 h2
  exact ⟨by omega, h3⟩

theorem be24_app {a b : Nat} {x y : Bytes} (ha : a < 16777216) (hb : b < 16777216) (h : be24 a ++ x = be24 b ++ y) :
    a = b ∧ x = y := by
  simp only [be24, List.cons_append, List.nil_append, List.cons.injEq] at h
  obtain ⟨h1, h2, h3, h4⟩ := h
  have h1 := congrArg UInt8.toNat h1
  have h2 := congrArg UInt8.toNat h2
  have h3 := congrArg UInt8.toNat h3
  simp only [UInt8.toNat_ofNat'] at h1 h2 h3
  exact ⟨by omega, h4⟩

theorem be32_app {a b : Nat} {x y : Bytes} (ha : a < 4294967296) (hb : b < 4294967296) (h : be32 a ++ x = be32 b ++ y) :
    a = b ∧ x = y := by
  simp only [be32, List.cons_append, List.nil_append, List.cons.injEq] at h
  obtain ⟨h1, h2, h3, h4, h5⟩ := h
  have h1 := congrArg UInt8.toNat h1
  have h2 := congrArg UInt8.toNat h2
  have h3 := congrArg UInt8.toNat h3
  have h4 := congrArg UInt8.toNat h4
  simp only [UInt8.toNat_ofNat'] at h1 h2 h3 h4
  exact ⟨by omega, h5⟩

theorem vec8_app {a b x y : Bytes} (ha : a.length < 256) (hb : b.length < 256)
    (h : UInt8.ofNat a.length :: (a ++ x) = UInt8.ofNat b.length :: (b ++ y)) : a = b ∧ x = y := by
  simp only [List.cons.injEq] at h
  have h1 := congrArg UInt8.toNat h.1
  simp only [UInt8.toNat_ofNat'] at h1
  exact List.append_inj h.2 (by omega)

theorem vec16_app {a b x y : Bytes} (ha : a.length < 65536) (hb : b.length < 65536)
    (h : be16 a.length ++ (a ++ x) = be16 b.length ++ (b ++ y)) : a = b ∧ x = y := by
  obtain ⟨h1, h2⟩ := be16_app ha hb h
  exact List.append_inj h2 h1

theorem vec24_app {a b x y : Bytes} (ha : a.length < 16777216) (hb : b.length < 16777216)
    (h : be24 a.length ++ (a ++ x) = be24 b.length ++ (b ++ y)) : a = b ∧ x = y := by
  obtain ⟨h1, h2⟩ := be24_app ha hb h
  exact List.append_inj h2 h1

theorem exts_inj : ∀ {xs ys : List RawExt}, (∀ e ∈ xs, e.ty < 65536 ∧ e.data.length < 65536) →
    (∀ e ∈ ys, e.ty < 65536 ∧ e.data.length < 65536) → xs.flatMap RawExt.bytes = ys.flatMap RawExt.bytes → xs = ys
  | [], [], _, _, _ => rfl
  | [], y :: ys, _, _, h => by simp [RawExt.bytes, be16] at h
  | x :: xs, [], _, _, h => by simp [RawExt.bytes, be16] at h
  | ⟨tx, dx⟩ :: xs, ⟨ty, dy⟩ :: ys, hx, hy, h => by
    simp only [List.flatMap_cons, RawExt.bytes, List.append_assoc] at h
    have h1 : tx < 65536 ∧ dx.length < 65536 := hx ⟨tx, dx⟩ (by simp)
    have h2 : ty < 65536 ∧ dy.length < 65536 := hy ⟨ty, dy⟩ (by simp)
    obtain ⟨rfl, g1⟩ := be16_app h1.1 h2.1 h
    obtain ⟨rfl, g2⟩ := vec16_app h1.2 h2.2 g1
    rw [exts_inj (fun e he => hx e (by simp [he])) (fun e he => hy e (by simp [he])) g2]

theorem extVec_app {xs ys : List RawExt} {x y : Bytes} (hx : ExtsSized xs) (hy : ExtsSized ys)
    (h : extVec xs ++ x = extVec ys ++ y) : xs = ys ∧ x = y := by
  simp only [extVec, List.append_assoc] at h
  obtain ⟨h1, h2⟩ := vec16_app hx.2 hy.2 h
  exact ⟨exts_inj hx.1 hy.1 h1, h2⟩

theorem entries_inj : ∀ {xs ys : List (Bytes × List RawExt)}, (∀ e ∈ xs, e.1.length < 16777216 ∧ ExtsSized e.2) →
    (∀ e ∈ ys, e.1.length < 16777216 ∧ ExtsSized e.2) → xs.flatMap certEntryBytes = ys.flatMap certEntryBytes → xs = ys
  | [], [], _, _, _ => rfl
  | [], y :: ys, _, _, h => by simp [certEntryBytes, be24] at h
  | x :: xs, [], _, _, h => by simp [certEntryBytes, be24] at h
  | ⟨cx, dx⟩ :: xs, ⟨cy, dy⟩ :: ys, hx, hy, h => by
    simp only [List.flatMap_cons, certEntryBytes, List.append_assoc] at h
    have h1 : cx.length < 16777216 ∧ ExtsSized dx := hx ⟨cx, dx⟩ (by simp)
    have h2 : cy.length < 16777216 ∧ ExtsSized dy := hy ⟨cy, dy⟩ (by simp)
    obtain ⟨rfl, g3⟩ := vec24_app h1.1 h2.1 h
    obtain ⟨rfl, g4⟩ := extVec_app h1.2 h2.2 g3
    rw [entries_inj (fun e he => hx e (by simp [he])) (fun e he => hy e (by simp [he])) g4]

theorem cipherSuites_lt {c : CipherSuite} {n : Nat} (h : (c, n) ∈ cipherSuites) : n < 65536 := by
  simp only [cipherSuites, List.mem_cons, Prod.mk.injEq, List.not_mem_nil, or_false] at h
  omega

theorem signatureSchemes_lt {c : SignatureScheme} {n : Nat} (h : (c, n) ∈ signatureSchemes) : n < 65536 := by
  simp only [signatureSchemes, List.mem_cons, Prod.mk.injEq, List.not_mem_nil, or_false] at h
  omega

/-- No byte string is the beginning of two different messages: the fields and what follows are determined. -/
theorem body_app {hl : Nat} {r r' : RawMsg} {x y : Bytes} (hr : r.WellSized hl) (hr' : r'.WellSized hl)
    (ht : r.type = r'.type) (h : r.body ++ x = r'.body ++ y) : r = r' ∧ x = y := by
  cases r <;> cases r' <;> first
    | (exfalso; simp [RawMsg.type] at ht; done)
    | skip
  case serverHello v rd sid cs comp xs v' rd' sid' cs' comp' xs' =>
    obtain ⟨a1, a2, a3, ⟨c, a4⟩, a5⟩ := hr
    obtain ⟨b1, b2, b3, ⟨c', b4⟩, b5⟩ := hr'
    simp only [RawMsg.body, List.append_assoc, List.cons_append] at h
    obtain ⟨rfl, g5⟩ := be16_app a1 b1 h
    obtain ⟨rfl, g6⟩ := List.append_inj g5 (by omega)
    obtain ⟨rfl, g7⟩ := vec8_app a3 b3 g6
    obtain ⟨rfl, g8⟩ := be16_app (cipherSuites_lt a4) (cipherSuites_lt b4) g7
    simp only [List.cons.injEq] at g8
    obtain ⟨rfl, g9⟩ := g8
    obtain ⟨rfl, g10⟩ := extVec_app a5 b5 g9
    exact ⟨rfl, g10⟩
  case encryptedExtensions xs xs' =>
    obtain ⟨rfl, g11⟩ := extVec_app hr hr' h
    exact ⟨rfl, g11⟩
  case certificateRequest ctx xs ctx' xs' =>
    simp only [RawMsg.body, List.append_assoc, List.cons_append] at h
    obtain ⟨rfl, g12⟩ := vec8_app hr.1 hr'.1 h
    obtain ⟨rfl, g13⟩ := extVec_app hr.2 hr'.2 g12
    exact ⟨rfl, g13⟩
  case certificate ctx es ctx' es' =>
    obtain ⟨a1, a2, a3⟩ := hr
    obtain ⟨b1, b2, b3⟩ := hr'
    simp only [RawMsg.body, List.append_assoc, List.cons_append] at h
    obtain ⟨rfl, g14⟩ := vec8_app a1 b1 h
    obtain ⟨h1, g15⟩ := vec24_app a3 b3 g14
    rw [entries_inj a2 b2 h1]
    exact ⟨rfl, g15⟩
  case certificateVerify s sig s' sig' =>
    obtain ⟨⟨c, a1⟩, a2⟩ := hr
    obtain ⟨⟨c', b1⟩, b2⟩ := hr'
    simp only [RawMsg.body, List.append_assoc] at h
    obtain ⟨rfl, g16⟩ := be16_app (signatureSchemes_lt a1) (signatureSchemes_lt b1) h
    obtain ⟨rfl, g17⟩ := vec16_app a2 b2 g16
    exact ⟨rfl, g17⟩
  case finished v v' =>
    obtain ⟨rfl, g18⟩ := List.append_inj (show v ++ x = v' ++ y from h) (hr.trans hr'.symm)
    exact ⟨rfl, g18⟩
  case newSessionTicket lt aa n t xs lt' aa' n' t' xs' =>
    obtain ⟨a1, a2, a3, a4, a5⟩ := hr
    obtain ⟨b1, b2, b3, b4, b5⟩ := hr'
    simp only [RawMsg.body, List.append_assoc, List.cons_append] at h
    obtain ⟨rfl, g19⟩ := be32_app a1 b1 h
    obtain ⟨rfl, g20⟩ := be32_app a2 b2 g19
    obtain ⟨rfl, g21⟩ := vec8_app a3 b3 g20
    obtain ⟨rfl, g22⟩ := vec16_app a4 b4 g21
    obtain ⟨rfl, g23⟩ := extVec_app a5 b5 g22
    exact ⟨rfl, g23⟩

theorem begins_same {hl : Nat} {r r' : RawMsg} {rest rest' bytes : Bytes} (h : Begins hl r rest bytes)
    (h' : Begins hl r' rest' bytes) : r = r' ∧ rest = rest' := by
  obtain ⟨a1, a2, n, a3, rfl⟩ := h
  obtain ⟨b1, b2, n', b3, e⟩ := h'
  simp only [List.cons_append, List.append_assoc, List.cons.injEq] at e
  obtain ⟨h1, h2⟩ := be24_app a3 b3 e.2
  exact body_app a1 b1 e.1 h2

end ETls.Spec
