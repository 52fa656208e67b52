import Verif.Model.Record

/-! # Safety of the parsers: in bounds, no panic, monotone position, minimal consumption -/

namespace ETls

/-- A parse position inside the buffer. -/
def PB.Valid (p : PB) : Prop := p.pos ≤ p.buffer.length

/-- `m` never panics, keeps the buffer, moves the position forward and within bounds, consumes at least `k` bytes when
it succeeds, and its results satisfy `Q`. -/
def Good {ε α : Type} (k : Nat) (Q : α → Prop) (m : M ε PB α) : Prop :=
  ∀ p : PB, p.Valid →
    (m p).1 ≠ .panic ∧ (m p).2.buffer = p.buffer ∧ p.pos ≤ (m p).2.pos ∧ (m p).2.Valid ∧
      ∀ a, (m p).1 = .ok a → Q a ∧ p.pos + k ≤ (m p).2.pos

section
variable {ε ε' α β : Type}

theorem Good.mono {k k' : Nat} {Q Q' : α → Prop} {m : M ε PB α} (h : Good k Q m) (hk : k' ≤ k)
    (hQ : ∀ a, Q a → Q' a) : Good k' Q' m := by
  intro p hp
  obtain ⟨h1, h2, h3, h4, h5⟩ := h p hp
  refine ⟨h1, h2, h3, h4, fun a ha => ?_⟩
  obtain ⟨q, l⟩ := h5 a ha
  exact ⟨hQ a q, by omega⟩

theorem Good.weak {k : Nat} {Q : α → Prop} {m : M ε PB α} (h : Good k Q m) : Good 0 (fun _ => True) m :=
  h.mono (Nat.zero_le _) fun _ _ => trivial

theorem Good.bind {k l : Nat} {Q : α → Prop} {R : β → Prop} {m : M ε PB α} {f : α → M ε PB β}
    (h : Good k Q m) (hf : ∀ a, Q a → Good l R (f a)) : Good (k + l) R (m >>= f) := by
  intro p hp
  obtain ⟨h1, h2, h3, h4, h5⟩ := h p hp
  rcases hm : m p with ⟨r, p'⟩
  rw [hm] at h1 h2 h3 h4 h5
  cases r with
  | ok a =>
    rw [M.bind_ok hm]
    obtain ⟨q, hl⟩ := h5 a rfl
    obtain ⟨g1, g2, g3, g4, g5⟩ := hf a q p' h4
    simp only at h2 h3 hl
    refine ⟨g1, by rw [g2, h2], by omega, g4, fun b hb => ?_⟩
    obtain ⟨r, s⟩ := g5 b hb
    exact ⟨r, by omega⟩
  | err e =>
    rw [M.bind_err hm]
    exact ⟨by simp, h2, h3, h4, by simp⟩
  | panic => exact absurd rfl h1

theorem Good.bind0 {k : Nat} {Q : α → Prop} {R : β → Prop} {m : M ε PB α} {f : α → M ε PB β}
    (h : Good k Q m) (hf : ∀ a, Q a → Good 0 R (f a)) : Good k R (m >>= f) :=
  Good.bind (l := 0) h hf

theorem Good.pure {Q : α → Prop} {a : α} (h : Q a) : Good (ε := ε) 0 Q (Pure.pure a) := by
  intro p hp
  refine ⟨by simp, rfl, Nat.le_refl _, hp, fun b hb => ?_⟩
  simp only [M.pure_apply, Res.ok.injEq] at hb
  subst hb; exact ⟨h, Nat.le_refl _⟩

theorem Good.fail {k : Nat} {Q : α → Prop} (e : ε) : Good k Q (M.fail e) := by
  intro p hp
  exact ⟨by simp [M.fail], rfl, Nat.le_refl _, hp, by simp [M.fail]⟩

theorem Good.lift {Q : α → Prop} {r : Res ε α} (hr : r ≠ .panic) (hQ : ∀ a, r = .ok a → Q a) :
    Good 0 Q (M.lift r) := by
  intro p hp
  exact ⟨hr, rfl, Nat.le_refl _, hp, fun a ha => ⟨hQ a ha, Nat.le_refl _⟩⟩

theorem Good.mapErr {k : Nat} {Q : α → Prop} {m : M ε PB α} (f : ε → ε') (h : Good k Q m) :
    Good k Q (M.mapErr f m) := by
  intro p hp
  obtain ⟨h1, h2, h3, h4, h5⟩ := h p hp
  rcases hm : m p with ⟨r, p'⟩
  rw [hm] at h1 h2 h3 h4 h5
  simp only [M.mapErr, hm]
  cases r with
  | ok a => exact ⟨by simp [Res.mapErr], h2, h3, h4, fun b hb => h5 b (by simpa [Res.mapErr] using hb)⟩
  | err e => exact ⟨by simp [Res.mapErr], h2, h3, h4, by simp [Res.mapErr]⟩
  | panic => exact absurd rfl h1

theorem Good.orErr {k : Nat} {Q : α → Prop} {m : P α} (h : Good k Q m) (e : TlsError) : Good k Q (m.orErr e) :=
  Good.mapErr _ h

theorem Good.toT {k : Nat} {Q : α → Prop} {m : P α} (h : Good k Q m) : Good k Q m.toT := Good.mapErr _ h

theorem Good.ite {k : Nat} {Q : α → Prop} {c : Prop} [Decidable c] {m m' : M ε PB α} (h : c → Good k Q m)
    (h' : ¬ c → Good k Q m') : Good k Q (if c then m else m') := by
  split
  · exact h ‹_›
  · exact h' ‹_›

end

theorem PB.new_valid (b : Bytes) : (PB.new b).Valid := Nat.zero_le _

theorem PB.slice_good (n : Nat) : Good n (fun d : PB => d.Valid ∧ d.pos = 0 ∧ d.buffer.length = n) (PB.slice n) := by
  intro p hp
  unfold PB.slice
  split
  · next h =>
    refine ⟨by simp, rfl, by simp, h, fun a ha => ?_⟩
    simp only [Res.ok.injEq] at ha
    subst ha
    refine ⟨⟨PB.new_valid _, rfl, ?_⟩, Nat.le_refl _⟩
    simp only [PB.new, List.length_take, List.length_drop]; omega
  · exact ⟨by simp, rfl, Nat.le_refl _, hp, by simp⟩

theorem PB.readU8_good : Good 1 (fun n => n < 256) PB.readU8 := by
  intro p hp
  unfold PB.readU8
  split
  · next h =>
    rw [List.getElem?_eq_getElem h]
    refine ⟨by simp, rfl, by simp, h, fun a ha => ?_⟩
    simp only [Res.ok.injEq] at ha
    subst ha
    exact ⟨UInt8.toNat_lt _, Nat.le_refl _⟩
  · exact ⟨by simp, rfl, Nat.le_refl _, hp, by simp⟩

theorem PB.readU16_good : Good 2 (fun n => n < 65536) PB.readU16 := by
  intro p hp
  unfold PB.readU16
  split
  · next h =>
    rw [List.getElem?_eq_getElem (show p.pos < p.buffer.length by omega),
      List.getElem?_eq_getElem (show p.pos + 1 < p.buffer.length by omega)]
    refine ⟨by simp, rfl, by simp, h, fun a ha => ?_⟩
    simp only [Res.ok.injEq] at ha
    have h1 := UInt8.toNat_lt p.buffer[p.pos]
    have h2 := UInt8.toNat_lt p.buffer[p.pos + 1]
    exact ⟨by omega, Nat.le_refl _⟩
  · exact ⟨by simp, rfl, Nat.le_refl _, hp, by simp⟩

theorem PB.readU24_good : Good 3 (fun n => n < 16777216) PB.readU24 := by
  intro p hp
  unfold PB.readU24
  split
  · next h =>
    rw [List.getElem?_eq_getElem (show p.pos < p.buffer.length by omega),
      List.getElem?_eq_getElem (show p.pos + 1 < p.buffer.length by omega),
      List.getElem?_eq_getElem (show p.pos + 2 < p.buffer.length by omega)]
    refine ⟨by simp, rfl, by simp, h, fun a ha => ?_⟩
    simp only [Res.ok.injEq] at ha
    have h1 := UInt8.toNat_lt p.buffer[p.pos]
    have h2 := UInt8.toNat_lt p.buffer[p.pos + 1]
    have h3 := UInt8.toNat_lt p.buffer[p.pos + 2]
    exact ⟨by omega, Nat.le_refl _⟩
  · exact ⟨by simp, rfl, Nat.le_refl _, hp, by simp⟩

theorem PB.readU32_good : Good 4 (fun _ => True) PB.readU32 := by
  intro p hp
  unfold PB.readU32
  split
  · next h =>
    rw [List.getElem?_eq_getElem (show p.pos < p.buffer.length by omega),
      List.getElem?_eq_getElem (show p.pos + 1 < p.buffer.length by omega),
      List.getElem?_eq_getElem (show p.pos + 2 < p.buffer.length by omega),
      List.getElem?_eq_getElem (show p.pos + 3 < p.buffer.length by omega)]
    exact ⟨by simp, rfl, by simp, h, fun a ha => ⟨trivial, Nat.le_refl _⟩⟩
  · exact ⟨by simp, rfl, Nat.le_refl _, hp, by simp⟩

theorem PB.fill_good (n : Nat) : Good n (fun d : Bytes => d.length = n) (PB.fill n) := by
  intro p hp
  unfold PB.fill
  split
  · next h =>
    refine ⟨by simp, rfl, by simp, h, fun a ha => ?_⟩
    simp only [Res.ok.injEq] at ha
    subst ha
    refine ⟨?_, Nat.le_refl _⟩
    simp only [List.length_take, List.length_drop]; omega
  · exact ⟨by simp, rfl, Nat.le_refl _, hp, by simp⟩

theorem PB.copy_good (cap : Nat) (dest : Bytes) (n : Nat) :
    Good n (fun d : Bytes => d.length = dest.length + n) (PB.copy cap dest n) := by
  intro p hp
  unfold PB.copy
  split
  · exact ⟨by simp, rfl, Nat.le_refl _, hp, by simp⟩
  split
  · next h =>
    refine ⟨by simp, rfl, by simp, h, fun a ha => ?_⟩
    simp only [Res.ok.injEq] at ha
    subst ha
    refine ⟨?_, Nat.le_refl _⟩
    simp only [List.length_append, List.length_take, List.length_drop]; omega
  · exact ⟨by simp, rfl, Nat.le_refl _, hp, by simp⟩

theorem Good.parseCode {α : Type} {k : Nat} {Q : Nat → Prop} {read : P Nat} (h : Good k Q read)
    (tbl : Nat → Option α) : Good k (fun _ => True) (parseCode read tbl) := by
  unfold ETls.parseCode
  refine h.bind0 fun n _ => ?_
  split
  · exact Good.pure trivial
  · exact Good.fail _

/-- A list loop whose item reader consumes at least one byte never runs out of fuel. -/
theorem PB.readListLoop_good {ε α : Type} (cap : Nat) (full : ε) {Q : α → Prop} {read : M ε PB α}
    (h : Good 1 Q read) (fuel : Nat) (acc : List α) (p : PB) (hp : p.Valid)
    (hf : p.buffer.length - p.pos < fuel) :
    (PB.readListLoop cap full read fuel acc p).1 ≠ .panic := by
  induction fuel generalizing acc p with
  | zero => omega
  | succ fuel ih =>
    unfold PB.readListLoop
    split
    · simp
    · next hne =>
      have hne' : p.pos ≠ p.buffer.length := by simpa [PB.isEmpty] using hne
      obtain ⟨h1, h2, h3, h4, h5⟩ := h p hp
      rcases hm : read p with ⟨r, p'⟩
      rw [hm] at h1 h2 h3 h4 h5
      cases r with
      | ok a =>
        rw [M.bind_ok hm]
        split
        · have := (h5 a rfl).2
          simp only [PB.Valid] at *
          apply ih _ _ h4
          rw [h2]; omega
        · simp [M.fail]
      | err e => rw [M.bind_err hm]; simp
      | panic => exact absurd rfl h1

theorem PB.readList_good {α : Type} (cap n : Nat) {Q : α → Prop} {read : P α} (h : Good 1 Q read) :
    Good n (fun _ => True) (PB.readList cap n read) := by
  unfold PB.readList
  refine (PB.slice_good n).bind0 fun d hd => Good.lift ?_ fun _ _ => trivial
  refine PB.readListLoop_good cap _ h _ _ _ hd.1 ?_
  rw [hd.2.1]; omega

/-- An extension payload parser is good. -/
def ExtGroup.Good (g : ExtGroup) : Prop :=
  ∀ t parser, g t = some parser → ∀ d : PB, d.Valid → (parser d).1 ≠ .panic

theorem unimplementedParse_np (d : PB) : (unimplementedParse d).1 ≠ .panic := by simp [unimplementedParse]

theorem serverNameResponseParse_np (d : PB) : (serverNameResponseParse d).1 ≠ .panic := by
  unfold serverNameResponseParse; split <;> simp

theorem keyShareEntryParse_good : ETls.Good 1 (fun _ => True) KeyShareEntry.parse := by
  unfold KeyShareEntry.parse NamedGroup.parse
  refine ((PB.readU16_good.parseCode _).mono (k' := 1) (by omega) fun _ h => h).bind0 fun g _ => ?_
  refine PB.readU16_good.weak.bind0 fun n _ => ?_
  exact (PB.slice_good n).weak.bind0 fun d _ => Good.pure trivial

theorem keyShareSHParse_good : ETls.Good 1 (fun _ => True) keyShareSHParse := by
  unfold keyShareSHParse
  exact keyShareEntryParse_good.bind0 fun _ _ => Good.pure trivial

theorem preSharedKeySHParse_good : ETls.Good 0 (fun _ => True) preSharedKeySHParse := by
  unfold preSharedKeySHParse
  exact PB.readU16_good.weak.bind0 fun _ _ => Good.pure trivial

theorem supportedVersionsSHParse_good : ETls.Good 0 (fun _ => True) supportedVersionsSHParse := by
  unfold supportedVersionsSHParse
  exact PB.readU16_good.weak.bind0 fun _ _ => Good.pure trivial

theorem maxFragmentLengthParse_good : ETls.Good 0 (fun _ => True) maxFragmentLengthParse := by
  unfold maxFragmentLengthParse MaxFragmentLength.parse
  exact (PB.readU8_good.parseCode _).weak.bind0 fun _ _ => Good.pure trivial

theorem supportedGroupsParse_good (cap : Nat) : ETls.Good 0 (fun _ => True) (supportedGroupsParse cap) := by
  unfold supportedGroupsParse NamedGroup.parse
  refine PB.readU16_good.weak.bind0 fun n _ => ?_
  refine (PB.readList_good cap n (Q := fun _ => True) ?_).weak.bind0 fun _ _ => Good.pure trivial
  exact (PB.readU16_good.parseCode _).mono (by omega) fun _ h => h

theorem signatureAlgorithmsParse_good (cap : Nat) : ETls.Good 0 (fun _ => True) (signatureAlgorithmsParse cap) := by
  unfold signatureAlgorithmsParse SignatureScheme.parse
  refine PB.readU16_good.weak.bind0 fun n _ => ?_
  refine (PB.readList_good cap n (Q := fun _ => True) ?_).weak.bind0 fun _ _ => Good.pure trivial
  exact (PB.readU16_good.parseCode _).mono (by omega) fun _ h => h

theorem alpnLoop_np (fuel : Nat) (p : PB) (hp : p.Valid) (hf : p.buffer.length - p.pos < fuel) :
    (alpnLoop fuel p).1 ≠ .panic := by
  induction fuel generalizing p with
  | zero => omega
  | succ fuel ih =>
    unfold alpnLoop
    split
    · simp
    · next hne =>
      have hne' : p.pos ≠ p.buffer.length := by simpa [PB.isEmpty] using hne
      obtain ⟨h1, h2, h3, h4, h5⟩ := PB.readU8_good p hp
      rcases hm : PB.readU8 p with ⟨r, p'⟩
      rw [hm] at h1 h2 h3 h4 h5
      cases r with
      | ok n =>
        rw [M.bind_ok hm]
        split
        · simp [M.fail]
        · obtain ⟨g1, g2, g3, g4, g5⟩ := PB.slice_good n p' h4
          rcases hs : PB.slice n p' with ⟨r, p''⟩
          rw [hs] at g1 g2 g3 g4 g5
          cases r with
          | ok d =>
            rw [M.bind_ok hs]
            have := (h5 n rfl).2
            simp only [PB.Valid] at *
            apply ih _ g4
            rw [g2, h2]; omega
          | err e => rw [M.bind_err hs]; simp
          | panic => exact absurd rfl g1
      | err e => rw [M.bind_err hm]; simp
      | panic => exact absurd rfl h1

theorem alpnParse_good : ETls.Good 0 (fun _ => True) alpnParse := by
  unfold alpnParse
  refine PB.readU16_good.weak.bind0 fun n _ => ?_
  refine ((PB.slice_good n).mono (Nat.zero_le _) fun _ h => h).bind0 fun l hl => Good.lift ?_ fun _ _ => trivial
  have := alpnLoop_np (l.buffer.length + 1) l hl.1 (by rw [hl.2.1]; omega)
  cases h : (alpnLoop (l.buffer.length + 1) l).1 <;> simp_all [Res.map]

theorem serverNameParse_good : ETls.Good 1 (fun _ => True) serverNameParse := by
  unfold serverNameParse nameTypeParse
  refine Good.bind0 (Q := fun _ => True) (k := 1) ?_ fun _ _ => ?_
  · refine PB.readU8_good.bind0 fun n _ => Good.ite (fun _ => Good.pure trivial) fun _ => Good.fail _
  · refine PB.readU16_good.weak.bind0 fun n _ => ?_
    refine (PB.slice_good n).weak.bind0 fun d _ => ?_
    exact Good.ite (fun _ => Good.pure trivial) fun _ => Good.fail _

theorem ETls.Good.np {ε α : Type} {k : Nat} {Q : α → Prop} {m : M ε PB α} (h : ETls.Good k Q m) (d : PB)
    (hd : d.Valid) : (m d).1 ≠ .panic := (h d hd).1

theorem serverHelloGroup_good : serverHelloGroup.Good := by
  intro t parser h d hd
  cases t <;> simp only [serverHelloGroup, Option.some.injEq, reduceCtorEq] at h <;> subst h
  · exact (preSharedKeySHParse_good d hd).1
  · exact (supportedVersionsSHParse_good d hd).1
  · exact unimplementedParse_np d
  · exact (keyShareSHParse_good d hd).1

theorem encryptedExtensionsGroup_good : encryptedExtensionsGroup.Good := by
  intro t parser h d hd
  cases t <;> simp only [encryptedExtensionsGroup, Option.some.injEq, reduceCtorEq] at h <;> subst h
  all_goals first
    | exact unimplementedParse_np d
    | exact serverNameResponseParse_np d
    | exact (maxFragmentLengthParse_good d hd).1
    | exact (supportedGroupsParse_good _ d hd).1
    | exact (alpnParse_good d hd).1

theorem certificateRequestGroup_good : certificateRequestGroup.Good := by
  intro t parser h d hd
  cases t <;> simp only [certificateRequestGroup, Option.some.injEq, reduceCtorEq] at h <;> subst h
  all_goals first
    | exact unimplementedParse_np d
    | exact (signatureAlgorithmsParse_good _ d hd).1

theorem certificateGroup_good : certificateGroup.Good := by
  intro t parser h d hd
  cases t <;> simp only [certificateGroup, Option.some.injEq, reduceCtorEq] at h <;> subst h
  all_goals exact unimplementedParse_np d

theorem newSessionTicketGroup_good : newSessionTicketGroup.Good := by
  intro t parser h d hd
  cases t <;> simp only [newSessionTicketGroup, Option.some.injEq, reduceCtorEq] at h <;> subst h
  all_goals exact unimplementedParse_np d

/-- The extension parser consumes at least the 4-byte header unless it fails for a reason other than an unknown
type. -/
theorem extParse_spec {g : ExtGroup} (hg : g.Good) (p : PB) (hp : p.Valid) :
    (extParse g p).1 ≠ .panic ∧ (extParse g p).2.buffer = p.buffer ∧ p.pos ≤ (extParse g p).2.pos ∧
      (extParse g p).2.Valid ∧
      (∀ r, (extParse g p).1 = r → ((∃ a, r = .ok a) ∨ r = .err .unknownExtensionType) →
        p.pos + 2 ≤ (extParse g p).2.pos) := by
  unfold extParse
  have hET : ETls.Good 2 (fun _ => True) ExtensionType.parse := PB.readU16_good.parseCode _
  obtain ⟨t1, t2, t3, t4, t5⟩ := hET p hp
  rcases hty : ExtensionType.parse p with ⟨ty, p1⟩
  rw [hty] at t1 t2 t3 t4 t5
  simp only at t1 t2 t3 t4 t5 ⊢
  obtain ⟨a1, a2, a3, a4, a5⟩ := (PB.readU16_good.orErr .decodeError) p1 t4
  rcases hn : PB.readU16.orErr .decodeError p1 with ⟨r, p2⟩
  rw [hn] at a1 a2 a3 a4 a5
  cases r with
  | panic => exact absurd rfl a1
  | err e =>
    rw [M.bind_err hn]
    refine ⟨by simp, by rw [a2, t2], by simp only at a3 ⊢; omega, a4, ?_⟩
    rintro r rfl (⟨a, h⟩ | h)
    · cases h
    · -- the only error of `orErr` is `decodeError`
      exfalso
      have : e = .decodeError := by
        simp only [P.orErr, M.mapErr] at hn
        rcases hq : PB.readU16 p1 with ⟨r, q⟩
        rw [hq] at hn
        cases r <;> simp [Res.mapErr] at hn
        exact hn.1.symm
      rw [this] at h
      simp at h
  | ok n =>
    rw [M.bind_ok hn]
    obtain ⟨b1, b2, b3, b4, b5⟩ := ((PB.slice_good n).orErr .decodeError) p2 a4
    have hp2 : p1.pos + 2 ≤ p2.pos := (a5 n rfl).2
    rcases hs : (PB.slice n).orErr .decodeError p2 with ⟨r, p3⟩
    rw [hs] at b1 b2 b3 b4 b5
    simp only at a2 a3 b2 b3
    cases r with
    | panic => exact absurd rfl b1
    | err e =>
      rw [M.bind_err hs]
      refine ⟨by simp, by rw [b2, a2, t2], by simp only; omega, b4, ?_⟩
      rintro r rfl _
      simp only; omega
    | ok d =>
      rw [M.bind_ok hs]
      have hd := (b5 d rfl).1
      cases ty with
      | panic => exact absurd rfl t1
      | err e =>
        cases e <;> refine ⟨by simp [M.fail], by simp only [M.fail]; rw [b2, a2, t2], by simp only [M.fail]; omega,
          b4, ?_⟩ <;> (rintro r rfl _; simp only [M.fail]; omega)
      | ok t =>
        simp only
        cases hgt : g t with
        | none =>
          refine ⟨by simp [M.fail], by simp only [M.fail]; rw [b2, a2, t2], by simp only [M.fail]; omega, b4, ?_⟩
          rintro r rfl _
          simp only [M.fail]; omega
        | some parser =>
          have := hg t parser hgt d hd.1
          simp only
          cases hpd : (parser d).1 with
          | panic => exact absurd hpd this
          | ok x =>
            refine ⟨by simp, by simp only [M.pure_apply]; rw [b2, a2, t2], by simp only [M.pure_apply]; omega, b4, ?_⟩
            rintro r rfl _
            simp only [M.pure_apply]; omega
          | err x =>
            refine ⟨by simp [M.fail], by simp only [M.fail]; rw [b2, a2, t2], by simp only [M.fail]; omega, b4, ?_⟩
            rintro r rfl _
            simp only [M.fail]; omega

theorem extLoop_np {g : ExtGroup} (hg : g.Good) (cap fuel : Nat) (acc : List Ext) (p : PB) (hp : p.Valid)
    (hf : p.buffer.length - p.pos < fuel) : (extLoop g cap fuel acc p).1 ≠ .panic := by
  induction fuel generalizing acc p with
  | zero => omega
  | succ fuel ih =>
    unfold extLoop
    split
    · simp
    · next hne =>
      have hne' : p.pos ≠ p.buffer.length := by simpa [PB.isEmpty] using hne
      obtain ⟨h1, h2, h3, h4, h5⟩ := extParse_spec hg p hp
      simp only [PB.Valid] at hp
      split
      · next e p' heq =>
        rw [heq] at h2 h4 h5
        have := h5 _ rfl (Or.inl ⟨_, rfl⟩)
        simp only at this h2
        split
        · apply ih _ _ h4
          simp only; rw [h2]; omega
        · simp
      · next p' heq =>
        rw [heq] at h2 h4 h5
        have := h5 _ rfl (Or.inr rfl)
        simp only at this h2
        apply ih _ _ h4
        simp only; rw [h2]; omega
      · simp
      · next heq => rw [heq] at h1; exact absurd rfl h1

theorem extParseVector_good {g : ExtGroup} (hg : g.Good) (cap : Nat) :
    ETls.Good 2 (fun _ => True) (extParseVector g cap) := by
  unfold extParseVector
  refine (PB.readU16_good.orErr _).bind0 fun n _ => ?_
  refine ((PB.slice_good n).toT.mono (Nat.zero_le _) fun _ h => h).bind0 fun b hb => ?_
  refine Good.lift (extLoop_np hg cap _ _ _ hb.1 ?_) fun _ _ => trivial
  rw [hb.2.1]; omega

theorem certEntryParse_good : ETls.Good 1 (fun _ => True) CertEntry.parse := by
  unfold CertEntry.parse
  refine ((PB.readU24_good.orErr _).mono (k' := 1) (by omega) fun _ h => h).bind0 fun n _ => ?_
  refine ((PB.slice_good n).orErr _).weak.bind0 fun d _ => ?_
  exact (extParseVector_good certificateGroup_good 2).weak.bind0 fun _ _ => Good.pure trivial

theorem certMsgParse_good : ETls.Good 0 (fun _ => True) CertMsg.parse := by
  unfold CertMsg.parse
  refine (PB.readU8_good.orErr _).weak.bind0 fun n _ => ?_
  refine ((PB.slice_good n).orErr _).weak.bind0 fun d _ => ?_
  refine (PB.readU24_good.orErr _).weak.bind0 fun m _ => ?_
  refine (((PB.slice_good m).orErr _).mono (Nat.zero_le _) fun _ h => h).bind0 fun raw hraw => ?_
  refine (Good.lift (Q := fun _ => True) ?_ fun _ _ => trivial).bind0 fun _ _ => Good.pure trivial
  unfold CertEntry.parseVector
  refine PB.readListLoop_good _ _ certEntryParse_good _ _ _ hraw.1 ?_
  rw [hraw.2.1]; omega

theorem certVerifyParse_good : ETls.Good 0 (fun _ => True) CertVerify.parse := by
  unfold CertVerify.parse SignatureScheme.parse
  refine ((PB.readU16_good.parseCode _).orErr _).weak.bind0 fun s _ => ?_
  refine (PB.readU16_good.orErr _).weak.bind0 fun n _ => ?_
  exact ((PB.slice_good n).orErr _).weak.bind0 fun d _ => Good.pure trivial

theorem certRequestParse_good : ETls.Good 0 (fun _ => True) certRequestParse := by
  unfold certRequestParse
  refine (PB.readU8_good.orErr _).weak.bind0 fun n _ => ?_
  refine ((PB.slice_good n).orErr _).weak.bind0 fun d _ => ?_
  exact (extParseVector_good certificateRequestGroup_good 6).weak.bind0 fun _ _ => Good.pure trivial

theorem serverHelloParse_good : ETls.Good 0 (fun _ => True) serverHelloParse := by
  unfold serverHelloParse CipherSuite.parse
  refine (PB.readU16_good.orErr _).weak.bind0 fun _ _ => ?_
  refine (PB.fill_good 32).toT.weak.bind0 fun _ _ => ?_
  refine (PB.readU8_good.orErr _).weak.bind0 fun n _ => ?_
  refine ((PB.slice_good n).orErr _).weak.bind0 fun d _ => ?_
  refine ((PB.readU16_good.parseCode _).orErr _).weak.bind0 fun s _ => ?_
  refine PB.readU8_good.toT.weak.bind0 fun _ _ => ?_
  exact (extParseVector_good serverHelloGroup_good 4).weak

theorem newSessionTicketParse_good : ETls.Good 0 (fun _ => True) newSessionTicketParse := by
  unfold newSessionTicketParse
  refine PB.readU32_good.toT.weak.bind0 fun _ _ => ?_
  refine PB.readU32_good.toT.weak.bind0 fun _ _ => ?_
  refine PB.readU8_good.toT.weak.bind0 fun n _ => ?_
  refine ((PB.slice_good n).orErr _).weak.bind0 fun d _ => ?_
  refine PB.readU16_good.toT.weak.bind0 fun n _ => ?_
  refine ((PB.slice_good n).orErr _).weak.bind0 fun d _ => ?_
  exact (extParseVector_good newSessionTicketGroup_good 1).weak.bind0 fun _ _ => Good.pure trivial

theorem encryptedExtensionsParse_good : ETls.Good 0 (fun _ => True) encryptedExtensionsParse := by
  unfold encryptedExtensionsParse
  exact (extParseVector_good encryptedExtensionsGroup_good 16).weak.bind0 fun _ _ => Good.pure trivial

variable (S : Suite)

theorem finishedParse_good : ETls.Good 0 (fun f => f.hash = none ∧ f.verify.length = S.hashLen) (finishedParse S) := by
  unfold finishedParse
  exact ((PB.fill_good S.hashLen).toT.mono (Nat.zero_le _) fun _ h => h).bind0 fun _ h => Good.pure ⟨rfl, h⟩

theorem serverHsParse_good : ETls.Good 4 (fun _ => True) (ServerHs.parse S) := by
  unfold ServerHs.parse HandshakeType.parse
  refine Good.bind (k := 1) (l := 3) ((PB.readU8_good.parseCode _).orErr _) fun t _ => ?_
  refine ((PB.readU24_good).orErr _).bind0 fun _ _ => ?_
  cases t <;> simp only
  all_goals first
    | exact Good.fail _
    | exact serverHelloParse_good.bind0 fun _ _ => Good.pure trivial
    | exact newSessionTicketParse_good.bind0 fun _ _ => Good.pure trivial
    | exact encryptedExtensionsParse_good.bind0 fun _ _ => Good.pure trivial
    | exact certMsgParse_good.bind0 fun _ _ => Good.pure trivial
    | exact certRequestParse_good.bind0 fun _ _ => Good.pure trivial
    | exact certVerifyParse_good.bind0 fun _ _ => Good.pure trivial
    | exact (finishedParse_good S).bind0 fun _ _ => Good.pure trivial

theorem alertParse_good : ETls.Good 2 (fun _ => True) Alert.parse := by
  unfold Alert.parse
  refine Good.bind (k := 1) (l := 1) PB.readU8_good.toT fun _ _ => ?_
  refine PB.readU8_good.toT.bind0 fun _ _ => ?_
  split
  · exact Good.fail _
  · split
    · exact Good.fail _
    · exact Good.pure trivial

/-- `ServerHandshake::read`: no panic; position moves by at least 4 within bounds; the transcript grows by exactly the
bytes read. -/
theorem serverHsRead_spec (p : PB) (tr : Bytes) (hp : p.Valid) :
    (ServerHs.read S (p, tr)).1 ≠ .panic ∧ (ServerHs.read S (p, tr)).2.1.buffer = p.buffer ∧
      p.pos ≤ (ServerHs.read S (p, tr)).2.1.pos ∧ (ServerHs.read S (p, tr)).2.1.Valid ∧
      ∀ h, (ServerHs.read S (p, tr)).1 = .ok h → p.pos + 4 ≤ (ServerHs.read S (p, tr)).2.1.pos ∧
        (ServerHs.read S (p, tr)).2.2 =
          tr ++ (p.buffer.drop p.pos).take ((ServerHs.read S (p, tr)).2.1.pos - p.pos) := by
  obtain ⟨h1, h2, h3, h4, h5⟩ := serverHsParse_good S p hp
  unfold ServerHs.read
  rcases hm : ServerHs.parse S p with ⟨r, p'⟩
  rw [hm] at h1 h2 h3 h4 h5
  simp only at h2 h3 h5
  simp only [hm]
  cases r with
  | panic => exact absurd rfl h1
  | err e => exact ⟨by simp, h2, h3, h4, by simp⟩
  | ok h =>
    refine ⟨by simp, h2, h3, h4, fun h' hh => ⟨(h5 h rfl).2, ?_⟩⟩
    simp only
    rw [h2]

end ETls
