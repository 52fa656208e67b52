import Verif.Proofs.Reads

/-! # What accepted input looks like

`Sound m R`: whenever the parser `m` succeeds, the bytes it consumed are related by `R` to its result. -/

namespace ETls
open Spec

variable {ε ε' α β : Type}

theorem Spec.Realises.inTable {table : List (α × Nat)} {code : α → Nat} {of : Nat → Option α} (h : Realises table code of)
    {n : Nat} {x : α} (hn : of n = some x) : (x, n) ∈ table := by
  have := h.encode_table x
  rwa [h.encode_decode n x hn] at this

def Sound (m : M ε PB α) (R : Bytes → α → Prop) : Prop :=
  ∀ (b : Bytes) (pos : Nat) (a : α) (p' : PB), pos ≤ b.length → m ⟨b, pos⟩ = (.ok a, p') →
    ∃ bs, R bs a ∧ b.drop pos = bs ++ b.drop (pos + bs.length) ∧ p' = ⟨b, pos + bs.length⟩ ∧
      pos + bs.length ≤ b.length

namespace Sound

theorem mono {m : M ε PB α} {R R' : Bytes → α → Prop} (h : Sound m R) (hR : ∀ bs a, R bs a → R' bs a) :
    Sound m R' := by
  intro b pos a p' hp hm
  obtain ⟨bs, h1, h2⟩ := h b pos a p' hp hm
  exact ⟨bs, hR _ _ h1, h2⟩

theorem bind {m : M ε PB α} {f : α → M ε PB β} {R : Bytes → α → Prop} {Q : α → Bytes → β → Prop} (h : Sound m R)
    (hf : ∀ a, Sound (f a) (Q a)) :
    Sound (m >>= f) (fun bs b => ∃ a bs1 bs2, bs = bs1 ++ bs2 ∧ R bs1 a ∧ Q a bs2 b) := by
  intro b pos x p' hp hm
  rcases h1 : m ⟨b, pos⟩ with ⟨r, p1⟩
  cases r with
  | err e => rw [M.bind_err h1] at hm; cases hm
  | panic => rw [M.bind_panic h1] at hm; cases hm
  | ok a =>
    rw [M.bind_ok h1] at hm
    obtain ⟨bs1, r1, d1, rfl, l1⟩ := h b pos a p1 hp h1
    obtain ⟨bs2, r2, d2, rfl, l2⟩ := hf a b _ x p' l1 hm
    refine ⟨bs1 ++ bs2, ⟨a, bs1, bs2, rfl, r1, r2⟩, ?_, ?_, ?_⟩
    · rw [d1, d2, List.append_assoc, List.length_append, Nat.add_assoc]
    · rw [List.length_append, Nat.add_assoc]
    · rw [List.length_append]; omega

theorem pure (a : α) : Sound (ε := ε) (Pure.pure a) (fun bs x => bs = [] ∧ x = a) := by
  intro b pos x p' hp hm
  simp only [M.pure_apply, Prod.mk.injEq, Res.ok.injEq] at hm
  exact ⟨[], ⟨rfl, hm.1.symm⟩, by simp, hm.2.symm, by simpa⟩

theorem lift (r : Res ε α) : Sound (M.lift r) (fun bs x => bs = [] ∧ r = .ok x) := by
  intro b pos x p' hp hm
  simp only [M.lift_apply, Prod.mk.injEq] at hm
  exact ⟨[], ⟨rfl, hm.1⟩, by simp, hm.2.symm, by simpa⟩

theorem fail (e : ε) (R : Bytes → α → Prop) : Sound (M.fail e) R := by
  intro b pos x p' hp hm
  simp at hm

theorem mapErr {m : M ε PB α} {R : Bytes → α → Prop} (h : Sound m R) (f : ε → ε') : Sound (M.mapErr f m) R := by
  intro b pos x p' hp hm
  unfold M.mapErr at hm
  rcases h1 : m ⟨b, pos⟩ with ⟨r, p1⟩
  rw [h1] at hm
  cases r with
  | err e => simp [Res.mapErr] at hm
  | panic => simp [Res.mapErr] at hm
  | ok a =>
    simp only [Res.mapErr, Prod.mk.injEq, Res.ok.injEq] at hm
    obtain ⟨rfl, rfl⟩ := hm
    exact h b pos a p1 hp h1

theorem orErr {m : P α} {R : Bytes → α → Prop} (h : Sound m R) (e : TlsError) : Sound (m.orErr e) R := h.mapErr _
theorem toT {m : P α} {R : Bytes → α → Prop} (h : Sound m R) : Sound m.toT R := h.mapErr _

theorem take_drop (b : Bytes) (pos n : Nat) (h : pos + n ≤ b.length) :
    b.drop pos = (b.drop pos).take n ++ b.drop (pos + ((b.drop pos).take n).length) := by
  have : ((b.drop pos).take n).length = n := by simp; omega
  rw [this, ← List.drop_drop, List.take_append_drop]

theorem slice (n : Nat) : Sound (PB.slice n) (fun bs d => bs.length = n ∧ d = PB.new bs) := by
  intro b pos x p' hp hm
  unfold PB.slice at hm
  simp only at hm
  split at hm
  · next hl =>
    simp only [Prod.mk.injEq, Res.ok.injEq] at hm
    obtain ⟨rfl, rfl⟩ := hm
    have hlen : ((b.drop pos).take n).length = n := by simp; omega
    exact ⟨_, ⟨hlen, rfl⟩, take_drop b pos n hl, by rw [hlen], by rw [hlen]; exact hl⟩
  · simp at hm

theorem fill (n : Nat) : Sound (PB.fill n) (fun bs d => bs.length = n ∧ d = bs) := by
  intro b pos x p' hp hm
  unfold PB.fill at hm
  simp only at hm
  split at hm
  · next hl =>
    simp only [Prod.mk.injEq, Res.ok.injEq] at hm
    obtain ⟨rfl, rfl⟩ := hm
    have hlen : ((b.drop pos).take n).length = n := by simp; omega
    exact ⟨_, ⟨hlen, rfl⟩, take_drop b pos n hl, by rw [hlen], by rw [hlen]; exact hl⟩
  · simp at hm

theorem drop_one {b : Bytes} {pos : Nat} {x : UInt8} (h : b[pos]? = some x) : b.drop pos = x :: b.drop (pos + 1) := by
  obtain ⟨hl, rfl⟩ := List.getElem?_eq_some_iff.1 h
  exact List.drop_eq_getElem_cons hl

theorem u8 : Sound PB.readU8 (fun bs n => n < 256 ∧ bs = [UInt8.ofNat n]) := by
  intro b pos x p' hp hm
  unfold PB.readU8 at hm
  simp only at hm
  split at hm
  · next hl =>
    split at hm
    · next a ha =>
      simp only [Prod.mk.injEq, Res.ok.injEq] at hm
      obtain ⟨rfl, rfl⟩ := hm
      have := a.toNat_lt
      refine ⟨[a], ⟨by omega, by simp⟩, ?_, rfl, ?_⟩
      · rw [drop_one ha]; rfl
      · simp only [List.length_singleton]; omega
    · simp at hm
  · simp at hm

theorem u16 : Sound PB.readU16 (fun bs n => n < 65536 ∧ bs = be16 n) := by
  intro b pos x p' hp hm
  unfold PB.readU16 at hm
  simp only at hm
  split at hm
  · next hl =>
    split at hm
    · next a c ha hc =>
      simp only [Prod.mk.injEq, Res.ok.injEq] at hm
      obtain ⟨rfl, rfl⟩ := hm
      have h1 := a.toNat_lt
      have h2 := c.toNat_lt
      refine ⟨[a, c], ⟨by omega, ?_⟩, ?_, rfl, ?_⟩
      · simp only [be16, List.cons.injEq, and_true]
        constructor
        · apply UInt8.toNat.inj; simp only [UInt8.toNat_ofNat']; omega
        · apply UInt8.toNat.inj; simp only [UInt8.toNat_ofNat']; omega
      · rw [drop_one ha, drop_one hc]; rfl
      · simp only [List.length_cons, List.length_nil]; omega
    · simp at hm
  · simp at hm

theorem u24 : Sound PB.readU24 (fun bs n => n < 16777216 ∧ bs = be24 n) := by
  intro b pos x p' hp hm
  unfold PB.readU24 at hm
  simp only at hm
  split at hm
  · next hl =>
    split at hm
    · next a c d ha hc hd =>
      simp only [Prod.mk.injEq, Res.ok.injEq] at hm
      obtain ⟨rfl, rfl⟩ := hm
      have h1 := a.toNat_lt
      have h2 := c.toNat_lt
      have h3 := d.toNat_lt
      refine ⟨[a, c, d], ⟨by omega, ?_⟩, ?_, rfl, ?_⟩
      · simp only [be24, List.cons.injEq, and_true]
        refine ⟨?_, ?_, ?_⟩
        · apply UInt8.toNat.inj; simp only [UInt8.toNat_ofNat']; omega
        · apply UInt8.toNat.inj; simp only [UInt8.toNat_ofNat']; omega
        · apply UInt8.toNat.inj; simp only [UInt8.toNat_ofNat']; omega
      · rw [drop_one ha, drop_one hc, drop_one hd]; rfl
      · simp only [List.length_cons, List.length_nil]; omega
    · simp at hm
  · simp at hm

theorem u32 : Sound PB.readU32 (fun bs n => n < 4294967296 ∧ bs = be32 n) := by
  intro b pos x p' hp hm
  unfold PB.readU32 at hm
  simp only at hm
  split at hm
  · next hl =>
    split at hm
    · next a c d e ha hc hd he =>
      simp only [Prod.mk.injEq, Res.ok.injEq] at hm
      obtain ⟨rfl, rfl⟩ := hm
      have h1 := a.toNat_lt
      have h2 := c.toNat_lt
      have h3 := d.toNat_lt
      have h4 := e.toNat_lt
      refine ⟨[a, c, d, e], ⟨by omega, ?_⟩, ?_, rfl, ?_⟩
      · simp only [be32, List.cons.injEq, and_true]
        refine ⟨?_, ?_, ?_, ?_⟩
        · apply UInt8.toNat.inj; simp only [UInt8.toNat_ofNat']; omega
        · apply UInt8.toNat.inj; simp only [UInt8.toNat_ofNat']; omega
        · apply UInt8.toNat.inj; simp only [UInt8.toNat_ofNat']; omega
        · apply UInt8.toNat.inj; simp only [UInt8.toNat_ofNat']; omega
      · rw [drop_one ha, drop_one hc, drop_one hd, drop_one he]; rfl
      · simp only [List.length_cons, List.length_nil]; omega
    · simp at hm
  · simp at hm

theorem code {read : P Nat} {R : Bytes → Nat → Prop} (h : Sound read R) (tbl : Nat → Option α) :
    Sound (parseCode read tbl) (fun bs a => ∃ n, R bs n ∧ tbl n = some a) := by
  unfold parseCode
  have hf : ∀ n, Sound (match tbl n with
      | some a => (Pure.pure a : P α)
      | none => M.fail .invalidData) (fun bs a => bs = [] ∧ tbl n = some a) := by
    intro n
    cases tbl n with
    | some a => exact (Sound.pure a).mono fun bs x hx => ⟨hx.1, by rw [hx.2]⟩
    | none => exact Sound.fail _ _
  refine (h.bind hf).mono ?_
  rintro bs a ⟨n, bs1, bs2, rfl, h1, rfl, h2⟩
  exact ⟨n, by simpa using h1, h2⟩

/-- A loop over a sub-buffer: it is the concatenation of what the items consumed. -/
theorem listLoop {read : M ε PB α} {R : Bytes → α → Prop} (h : Sound read R) (cap : Nat) (full : ε) (fuel : Nat) :
    ∀ (acc : List α) (b : Bytes) (pos : Nat) (res : List α), pos ≤ b.length →
    (PB.readListLoop cap full read fuel acc ⟨b, pos⟩).1 = .ok res →
    ∃ xs : List (Bytes × α), b.drop pos = xs.flatMap Prod.fst ∧ (∀ x ∈ xs, R x.1 x.2) ∧ res = acc ++ xs.map Prod.snd := by
  induction fuel with
  | zero => intro acc b pos res _ hm; simp [PB.readListLoop] at hm
  | succ fuel ih =>
    intro acc b pos res hp hm
    unfold PB.readListLoop at hm
    split at hm
    · next he =>
      simp only [PB.isEmpty, beq_iff_eq] at he
      simp only [Res.ok.injEq] at hm
      exact ⟨[], by simp [he], by simp, by simp [hm]⟩
    · rcases h1 : read ⟨b, pos⟩ with ⟨r, p1⟩
      cases r with
      | err e => rw [M.bind_err h1] at hm; cases hm
      | panic => rw [M.bind_panic h1] at hm; cases hm
      | ok a =>
        rw [M.bind_ok h1] at hm
        obtain ⟨bs, r1, d1, rfl, l1⟩ := h b pos a p1 hp h1
        split at hm
        · obtain ⟨xs, e1, e2, e3⟩ := ih _ b _ res l1 hm
          refine ⟨(bs, a) :: xs, ?_, ?_, ?_⟩
          · rw [d1, e1]; rfl
          · intro x hx
            rcases List.mem_cons.1 hx with rfl | hx
            · exact r1
            · exact e2 x hx
          · rw [e3]; simp
        · simp at hm

end Sound

/-! ## Extensions -/

theorem extParse_shape (g : ExtGroup) (b : Bytes) (pos : Nat) (hp : pos ≤ b.length) (r : Res TlsError Ext) (p' : PB)
    (hr : (∃ e, r = .ok e) ∨ r = .err .unknownExtensionType) (h : extParse g ⟨b, pos⟩ = (r, p')) :
    ∃ x : RawExt, x.ty < 65536 ∧ x.data.length < 65536 ∧ b.drop pos = x.bytes ++ b.drop (pos + x.bytes.length) ∧
      p' = ⟨b, pos + x.bytes.length⟩ ∧ pos + x.bytes.length ≤ b.length := by
  unfold extParse at h
  rcases hu : PB.readU16 ⟨b, pos⟩ with ⟨r0, p0⟩
  have key : ∀ (ty : Res ParseError ExtensionType) (q : Nat), q ≤ b.length →
      (PB.readU16.orErr .decodeError >>= fun n => (PB.slice n).orErr .decodeError >>= fun d =>
        match ty with
        | .panic => M.crash
        | .err .invalidData => M.fail .unknownExtensionType
        | .err _ => M.fail .decodeError
        | .ok t =>
          match g t with
          | none => M.fail (.abortHandshake .fatal .illegalParameter)
          | some parser =>
            match (parser d).1 with
            | .ok x => pure (Ext.mk t x)
            | .err _ => M.fail .decodeError
            | .panic => M.crash : PT Ext) ⟨b, q⟩ = (r, p') →
      ∃ d : Bytes, d.length < 65536 ∧ b.drop q = be16 d.length ++ d ++ b.drop (q + (2 + d.length)) ∧
        p' = ⟨b, q + (2 + d.length)⟩ ∧ q + (2 + d.length) ≤ b.length := by
    intro ty q hq h
    rcases h1 : PB.readU16.orErr .decodeError ⟨b, q⟩ with ⟨r1, p1⟩
    cases r1 with
    | panic => rw [M.bind_panic h1] at h; simp only [Prod.mk.injEq] at h; rw [← h.1] at hr; simp at hr
    | err e =>
      exfalso
      have he : e = .decodeError := by
        have : (PB.readU16.orErr .decodeError ⟨b, q⟩).1 = .err e := by rw [h1]
        unfold P.orErr M.mapErr at this
        simp only at this
        cases hx : (PB.readU16 ⟨b, q⟩).1 <;> rw [hx] at this <;> simp [Res.mapErr] at this
        exact this.symm
      rw [M.bind_err h1] at h
      simp only [Prod.mk.injEq] at h
      rw [← h.1, he] at hr
      simp at hr
    | ok n =>
      rw [M.bind_ok h1] at h
      obtain ⟨bs1, ⟨l1, rfl⟩, d1, rfl, e1⟩ := (Sound.u16.orErr .decodeError) b q n p1 hq h1
      rcases h2 : (PB.slice n).orErr .decodeError ⟨b, q + (be16 n).length⟩ with ⟨r2, p2⟩
      cases r2 with
      | panic => rw [M.bind_panic h2] at h; simp only [Prod.mk.injEq] at h; rw [← h.1] at hr; simp at hr
      | err e =>
        exfalso
        have he : e = .decodeError := by
          have : ((PB.slice n).orErr .decodeError ⟨b, q + (be16 n).length⟩).1 = .err e := by rw [h2]
          unfold P.orErr M.mapErr at this
          simp only at this
          cases hx : (PB.slice n ⟨b, q + (be16 n).length⟩).1 <;> rw [hx] at this <;> simp [Res.mapErr] at this
          exact this.symm
        rw [M.bind_err h2] at h
        simp only [Prod.mk.injEq] at h
        rw [← h.1, he] at hr
        simp at hr
      | ok d =>
        rw [M.bind_ok h2] at h
        obtain ⟨bs2, ⟨l2, rfl⟩, d2, rfl, e2⟩ := ((Sound.slice n).orErr .decodeError) b _ d p2 e1 h2
        have hst : p' = ⟨b, q + (be16 n).length + bs2.length⟩ := by
          have : ∀ (m : PT Ext), (m = M.crash ∨ (∃ e, m = M.fail e) ∨ ∃ x, m = pure x) → ∀ s, (m s).2 = s := by
            rintro m (rfl | ⟨e, rfl⟩ | ⟨x, rfl⟩) s <;> rfl
          have hx := congrArg Prod.snd h
          simp only at hx
          rw [← hx]
          apply this
          split
          · exact .inl rfl
          · exact .inr (.inl ⟨_, rfl⟩)
          · exact .inr (.inl ⟨_, rfl⟩)
          · split
            · exact .inr (.inl ⟨_, rfl⟩)
            · split
              · exact .inr (.inr ⟨_, rfl⟩)
              · exact .inr (.inl ⟨_, rfl⟩)
              · exact .inl rfl
        have hb2 : (be16 n).length = 2 := rfl
        rw [hb2] at d1 d2 e2 hst
        refine ⟨bs2, by omega, ?_, ?_, by omega⟩
        · rw [d1, d2, l2, List.append_assoc, Nat.add_assoc]
        · rw [hst, Nat.add_assoc]
  cases r0 with
  | panic =>
    exfalso
    have := (PB.readU16_good ⟨b, pos⟩ hp).1
    rw [hu] at this
    exact this rfl
  | err e =>
    exfalso
    have hty : ExtensionType.parse ⟨b, pos⟩ = (.err e, p0) := by
      unfold ExtensionType.parse parseCode
      rw [M.bind_err hu]
    have hp0 : p0 = ⟨b, pos⟩ ∧ ¬ pos + 2 ≤ b.length := by
      unfold PB.readU16 at hu
      simp only at hu
      split at hu
      · split at hu <;> simp at hu
      · next hn => simp only [Prod.mk.injEq] at hu; exact ⟨hu.2.symm, hn⟩
    rw [hty, hp0.1] at h
    obtain ⟨d, _, _, _, hl⟩ := key _ pos hp h
    exact hp0.2 (by omega)
  | ok n =>
    obtain ⟨bs1, ⟨l1, rfl⟩, d1, rfl, e1⟩ := Sound.u16 b pos n p0 hp hu
    have hb2 : (be16 n).length = 2 := rfl
    rw [hb2] at d1 e1 hu
    have hty : ∃ ty, ExtensionType.parse ⟨b, pos⟩ = (ty, ⟨b, pos + 2⟩) := by
      unfold ExtensionType.parse parseCode
      rw [M.bind_ok hu]
      cases ExtensionType.of n with
      | some a => exact ⟨_, rfl⟩
      | none => exact ⟨_, rfl⟩
    obtain ⟨ty, hty⟩ := hty
    rw [hty] at h
    obtain ⟨d, k1, k2, k3, k4⟩ := key ty (pos + 2) e1 h
    have hbl : (RawExt.mk n d).bytes.length = 4 + d.length := by simp [RawExt.bytes, be16]; omega
    refine ⟨⟨n, d⟩, l1, k1, ?_, ?_, ?_⟩
    · rw [d1, k2, hbl]
      simp only [RawExt.bytes, List.append_assoc]
      congr 4
      omega
    · rw [k3, hbl]; congr 1; omega
    · rw [hbl]; omega

theorem extLoop_shape (g : ExtGroup) (cap fuel : Nat) : ∀ (acc : List Ext) (b : Bytes) (pos : Nat) (res : List Ext),
    pos ≤ b.length → (extLoop g cap fuel acc ⟨b, pos⟩).1 = .ok res →
    ∃ xs : List RawExt, b.drop pos = xs.flatMap RawExt.bytes ∧ ∀ e ∈ xs, e.ty < 65536 ∧ e.data.length < 65536 := by
  induction fuel with
  | zero => intro acc b pos res _ hm; simp [extLoop] at hm
  | succ fuel ih =>
    intro acc b pos res hp hm
    unfold extLoop at hm
    split at hm
    · next he =>
      simp only [PB.isEmpty, beq_iff_eq] at he
      exact ⟨[], by simp [he], by simp⟩
    · have step : ∀ (p' : PB) (r : Res TlsError Ext) (acc' : List Ext), ((∃ e, r = .ok e) ∨ r = .err .unknownExtensionType) →
          extParse g ⟨b, pos⟩ = (r, p') → (extLoop g cap fuel acc' p').1 = .ok res →
          ∃ xs : List RawExt, b.drop pos = xs.flatMap RawExt.bytes ∧ ∀ e ∈ xs, e.ty < 65536 ∧ e.data.length < 65536 := by
        intro p' r acc' hr hx hl
        obtain ⟨x, x1, x2, x3, rfl, x5⟩ := extParse_shape g b pos hp r p' hr hx
        obtain ⟨xs, y1, y2⟩ := ih acc' b _ res x5 hl
        refine ⟨x :: xs, ?_, ?_⟩
        · rw [x3, y1]; rfl
        · intro e he
          rcases List.mem_cons.1 he with rfl | he
          · exact ⟨x1, x2⟩
          · exact y2 e he
      rcases hx : extParse g ⟨b, pos⟩ with ⟨r, p'⟩
      rw [hx] at hm
      cases r with
      | panic => simp at hm
      | ok e =>
        simp only at hm
        split at hm
        · exact step p' _ _ (.inl ⟨e, rfl⟩) hx hm
        · simp at hm
      | err e =>
        cases e <;> first | exact step p' _ _ (.inr rfl) hx hm | simp at hm

theorem extVector_sound (g : ExtGroup) (cap : Nat) :
    Sound (extParseVector g cap) (fun bs _ => ∃ xs, ExtsSized xs ∧ bs = extVec xs) := by
  unfold extParseVector
  refine ((Sound.u16.orErr .invalidExtensionsLength).bind fun n => (Sound.slice n).toT.bind fun d =>
    Sound.lift (extLoop g cap (d.buffer.length + 1) [] d).1).mono ?_
  rintro bs a ⟨n, bs1, bs2, rfl, ⟨hn, rfl⟩, d, bs3, bs4, rfl, ⟨hl, rfl⟩, rfl, hr⟩
  obtain ⟨xs, h1, h2⟩ := extLoop_shape g cap _ _ _ _ _ (by simp) hr
  simp only [List.drop_zero] at h1
  subst h1
  refine ⟨xs, ⟨h2, by omega⟩, ?_⟩
  simp [extVec, hl]

/-! ## Messages -/

/-- The bytes of a message with any value in its length field. -/
def RawShape (hl : Nat) (m : Bytes) : Prop :=
  ∃ (raw : RawMsg) (n : Nat), raw.WellSized hl ∧ n < 16777216 ∧ m = raw.type :: (be24 n ++ raw.body)

variable (S : Suite)

theorem serverHello_sound : Sound serverHelloParse (fun bs _ =>
    ∃ v r sid cs comp xs, RawMsg.WellSized S.hashLen (.serverHello v r sid cs comp xs) ∧
      bs = RawMsg.body (.serverHello v r sid cs comp xs)) := by
  unfold serverHelloParse
  refine ((Sound.u16.orErr _).bind fun _ => (Sound.fill 32).toT.bind fun _ => (Sound.u8.orErr _).bind fun n =>
    ((Sound.slice n).orErr _).bind fun _ => ((Sound.u16.code _).orErr _).bind fun _ => Sound.u8.toT.bind fun _ =>
    extVector_sound serverHelloGroup 4).mono ?_
  rintro bs a ⟨v, b1, b2, rfl, ⟨h1, rfl⟩, r, b3, b4, rfl, ⟨h2, rfl⟩, n, b5, b6, rfl, ⟨h3, rfl⟩, d, b7, b8, rfl, ⟨h4, rfl⟩,
    cs, b9, b10, rfl, ⟨csn, ⟨h5, rfl⟩, h6⟩, comp, b11, b12, rfl, ⟨h7, rfl⟩, xs, h8, rfl⟩
  refine ⟨v, r, b7, csn, UInt8.ofNat comp, xs, ⟨h1, h2, by omega, ?_, h8⟩, ?_⟩
  · exact ⟨cs, C04_cipher_suite.inTable h6⟩
  · simp [RawMsg.body, h4]

theorem newSessionTicket_sound : Sound newSessionTicketParse (fun bs _ =>
    ∃ lt aa n t xs, RawMsg.WellSized S.hashLen (.newSessionTicket lt aa n t xs) ∧
      bs = RawMsg.body (.newSessionTicket lt aa n t xs)) := by
  unfold newSessionTicketParse
  refine (Sound.u32.toT.bind fun _ => Sound.u32.toT.bind fun _ => Sound.u8.toT.bind fun n =>
    ((Sound.slice n).orErr _).bind fun _ => Sound.u16.toT.bind fun m => ((Sound.slice m).orErr _).bind fun _ =>
    (extVector_sound newSessionTicketGroup 1).bind fun _ => Sound.pure ()).mono ?_
  rintro bs a ⟨lt, b1, b2, rfl, ⟨h1, rfl⟩, aa, b3, b4, rfl, ⟨h2, rfl⟩, n, b5, b6, rfl, ⟨h3, rfl⟩, d, b7, b8, rfl, ⟨h4, rfl⟩,
    m, b9, b10, rfl, ⟨h5, rfl⟩, d2, b11, b12, rfl, ⟨h6, rfl⟩, e, b13, b14, rfl, ⟨xs, h7, rfl⟩, rfl, _⟩
  refine ⟨lt, aa, b7, b11, xs, ⟨h1, h2, by omega, by omega, h7⟩, ?_⟩
  simp [RawMsg.body, h4, h6]

theorem certRequest_sound : Sound certRequestParse (fun bs _ =>
    ∃ ctx xs, RawMsg.WellSized S.hashLen (.certificateRequest ctx xs) ∧
      bs = RawMsg.body (.certificateRequest ctx xs)) := by
  unfold certRequestParse
  refine ((Sound.u8.orErr _).bind fun n => ((Sound.slice n).orErr _).bind fun d =>
    (extVector_sound certificateRequestGroup 6).bind fun _ => Sound.pure d.buffer).mono ?_
  rintro bs a ⟨n, b5, b6, rfl, ⟨h3, rfl⟩, d, b7, b8, rfl, ⟨h4, rfl⟩, e, b13, b14, rfl, ⟨xs, h7, rfl⟩, rfl, _⟩
  exact ⟨b7, xs, ⟨by omega, h7⟩, by simp [RawMsg.body, h4]⟩

theorem certVerify_sound : Sound CertVerify.parse (fun bs _ =>
    ∃ s sig, RawMsg.WellSized S.hashLen (.certificateVerify s sig) ∧
      bs = RawMsg.body (.certificateVerify s sig)) := by
  unfold CertVerify.parse
  refine (((Sound.u16.code _).orErr _).bind fun s => (Sound.u16.orErr _).bind fun n =>
    ((Sound.slice n).orErr _).bind fun d => Sound.pure (CertVerify.mk s d.buffer)).mono ?_
  rintro bs a ⟨s, b5, b6, rfl, ⟨sn, ⟨h3, rfl⟩, h4⟩, n, b7, b8, rfl, ⟨h5, rfl⟩, d, b9, b10, rfl, ⟨h6, rfl⟩, rfl, _⟩
  exact ⟨sn, b9, ⟨⟨s, C04_signature_scheme.inTable h4⟩, by omega⟩, by simp [RawMsg.body, h6]⟩

theorem certEntry_sound : Sound CertEntry.parse (fun bs _ =>
    ∃ e : Bytes × List RawExt, e.1.length < 16777216 ∧ ExtsSized e.2 ∧ bs = certEntryBytes e) := by
  unfold CertEntry.parse
  refine ((Sound.u24.orErr _).bind fun n => ((Sound.slice n).orErr _).bind fun d =>
    (extVector_sound certificateGroup 2).bind fun _ => Sound.pure (CertEntry.x509 d.buffer)).mono ?_
  rintro bs a ⟨n, b5, b6, rfl, ⟨h3, rfl⟩, d, b7, b8, rfl, ⟨h4, rfl⟩, e, b13, b14, rfl, ⟨xs, h7, rfl⟩, rfl, _⟩
  exact ⟨(b7, xs), by simp only; omega, h7, by simp [certEntryBytes, h4]⟩

theorem cert_sound : Sound CertMsg.parse (fun bs _ =>
    ∃ ctx es, RawMsg.WellSized S.hashLen (.certificate ctx es) ∧ bs = RawMsg.body (.certificate ctx es)) := by
  unfold CertMsg.parse
  refine ((Sound.u8.orErr _).bind fun n => ((Sound.slice n).orErr _).bind fun d => (Sound.u24.orErr _).bind fun k =>
    ((Sound.slice k).orErr _).bind fun raw => (Sound.lift (CertEntry.parseVector 16 raw)).bind fun es =>
    Sound.pure (CertMsg.mk raw.buffer d.buffer es)).mono ?_
  rintro bs a ⟨n, b5, b6, rfl, ⟨h3, rfl⟩, d, b7, b8, rfl, ⟨h4, rfl⟩, k, b9, b10, rfl, ⟨h5, rfl⟩, raw, b11, b12, rfl,
    ⟨h6, rfl⟩, es, b13, b14, rfl, ⟨rfl, h7⟩, rfl, _⟩
  unfold CertEntry.parseVector at h7
  obtain ⟨xs, e1, e2, e3⟩ := Sound.listLoop certEntry_sound _ _ _ _ _ _ _ (by simp) h7
  simp only [List.drop_zero] at e1
  have : ∃ ys : List (Bytes × List RawExt), xs.flatMap Prod.fst = ys.flatMap certEntryBytes ∧
      ∀ e ∈ ys, e.1.length < 16777216 ∧ ExtsSized e.2 := by
    clear e1 e3 h7
    induction xs with
    | nil => exact ⟨[], rfl, by simp⟩
    | cons x xs ih =>
      obtain ⟨ys, y1, y2⟩ := ih fun x hx => e2 x (List.mem_cons_of_mem _ hx)
      obtain ⟨e, z1, z2, z3⟩ := e2 x List.mem_cons_self
      refine ⟨e :: ys, ?_, ?_⟩
      · simp only [List.flatMap_cons, y1, z3]
      · intro w hw
        rcases List.mem_cons.1 hw with rfl | hw
        · exact ⟨z1, z2⟩
        · exact y2 w hw
  obtain ⟨ys, y1, y2⟩ := this
  rw [y1] at e1
  subst e1
  exact ⟨b7, ys, ⟨by omega, y2, by omega⟩, by simp [RawMsg.body, h4, h6]⟩

theorem finished_sound : Sound (finishedParse S) (fun bs _ => bs.length = S.hashLen) := by
  unfold finishedParse
  refine ((Sound.fill S.hashLen).toT.bind fun v => Sound.pure (Finished.mk v none)).mono ?_
  rintro bs a ⟨n, b5, b6, rfl, ⟨h3, rfl⟩, rfl, _⟩
  simpa using h3

/-- Whatever the decoder accepts has the RFC 8446 layout, except that the length field is not looked at. -/
theorem parse_shape : Sound (ServerHs.parse S) (fun bs _ => RawShape S.hashLen bs) := by
  unfold ServerHs.parse
  have hbody : ∀ t : HandshakeType, Sound (match t with
      | .serverHello => (do return .serverHello (← serverHelloParse) : PT ServerHs)
      | .newSessionTicket => do
        newSessionTicketParse
        return .newSessionTicket
      | .encryptedExtensions => do
        encryptedExtensionsParse
        return .encryptedExtensions
      | .certificate => return .certificate (← CertMsg.parse)
      | .certificateRequest => return .certificateRequest (← certRequestParse)
      | .certificateVerify => return .certificateVerify (← CertVerify.parse)
      | .finished => return .finished (← finishedParse S)
      | _ => M.fail .unimplemented)
      (fun bs _ => ∃ raw : RawMsg, raw.WellSized S.hashLen ∧ bs = raw.body ∧ raw.type = UInt8.ofNat t.code) := by
    intro t
    cases t with
    | serverHello =>
      refine ((serverHello_sound S).bind fun e => Sound.pure (ServerHs.serverHello e)).mono ?_
      rintro bs a ⟨e, b1, b2, rfl, ⟨v, r, sid, cs, comp, xs, h1, rfl⟩, rfl, _⟩
      exact ⟨_, h1, by simp, rfl⟩
    | newSessionTicket =>
      refine ((newSessionTicket_sound S).bind fun e => Sound.pure ServerHs.newSessionTicket).mono ?_
      rintro bs a ⟨e, b1, b2, rfl, ⟨v, r, sid, cs, xs, h1, rfl⟩, rfl, _⟩
      exact ⟨_, h1, by simp, rfl⟩
    | encryptedExtensions =>
      unfold encryptedExtensionsParse
      refine (((extVector_sound encryptedExtensionsGroup 16).bind fun _ => Sound.pure ()).bind
        fun e => Sound.pure ServerHs.encryptedExtensions).mono ?_
      rintro bs a ⟨e, b1, b2, rfl, ⟨_, b3, b4, rfl, ⟨xs, h1, rfl⟩, rfl, _⟩, rfl, _⟩
      exact ⟨.encryptedExtensions xs, h1, by simp [RawMsg.body], rfl⟩
    | certificate =>
      refine ((cert_sound S).bind fun e => Sound.pure (ServerHs.certificate e)).mono ?_
      rintro bs a ⟨e, b1, b2, rfl, ⟨ctx, es, h1, rfl⟩, rfl, _⟩
      exact ⟨_, h1, by simp, rfl⟩
    | certificateRequest =>
      refine ((certRequest_sound S).bind fun e => Sound.pure (ServerHs.certificateRequest e)).mono ?_
      rintro bs a ⟨e, b1, b2, rfl, ⟨ctx, es, h1, rfl⟩, rfl, _⟩
      exact ⟨_, h1, by simp, rfl⟩
    | certificateVerify =>
      refine ((certVerify_sound S).bind fun e => Sound.pure (ServerHs.certificateVerify e)).mono ?_
      rintro bs a ⟨e, b1, b2, rfl, ⟨ctx, es, h1, rfl⟩, rfl, _⟩
      exact ⟨_, h1, by simp, rfl⟩
    | finished =>
      refine ((finished_sound S).bind fun e => Sound.pure (ServerHs.finished e)).mono ?_
      rintro bs a ⟨e, b1, b2, rfl, h1, rfl, _⟩
      exact ⟨.finished b1, h1, by simp [RawMsg.body], rfl⟩
    | _ => exact Sound.fail _ _
  refine (((Sound.u8.code HandshakeType.of).orErr .invalidHandshake).bind fun t =>
    (Sound.u24.orErr .invalidHandshake).bind fun _ => hbody t).mono ?_
  rintro bs a ⟨t, b1, b2, rfl, ⟨tn, ⟨h1, rfl⟩, h2⟩, n, b3, b4, rfl, ⟨h3, rfl⟩, raw, h4, rfl, h5⟩
  refine ⟨raw, n, h4, h3, ?_⟩
  have := C04_handshake_type.encode_decode _ _ h2
  rw [h5, ← this]
  rfl

/-- **C56** A message the decoder accepts (wherever it stands) is, byte for byte, the RFC 8446 encoding of a message
with all fields in range, up to the value of the 24-bit length field, and what is returned is what C55 says about that
message. -/
theorem parse_sound (A m B : Bytes) (h : ServerHs)
    (hp : ServerHs.parse S ⟨A ++ (m ++ B), A.length⟩ = (.ok h, ⟨A ++ (m ++ B), A.length + m.length⟩)) :
    ∃ (raw : RawMsg) (n : Nat), raw.WellSized S.hashLen ∧ n < 16777216 ∧ m = raw.type :: (be24 n ++ raw.body) ∧
      decoded raw = .ok h := by
  obtain ⟨bs, ⟨raw, n, h1, h2, rfl⟩, h3, h4, h5⟩ := parse_shape S _ _ _ _ (by simp) hp
  have hl : m.length = (raw.type :: (be24 n ++ raw.body)).length := by
    have := congrArg PB.pos h4
    simp only at this
    omega
  have hm : m = raw.type :: (be24 n ++ raw.body) := by
    simp only [List.drop_left] at h3
    exact (List.append_inj h3 hl).1
  refine ⟨raw, n, h1, h2, hm, ?_⟩
  have := (serverHsParse_reads_len S raw h1 n h2 A B).1
  rw [← hm, hp] at this
  exact this.symm

end ETls
