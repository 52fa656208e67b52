import Verif.Proofs.Encode

/-! # What the write buffer operations do -/

namespace ETls

variable (S : Suite)

/-- The first three bytes of a record with this header. -/
def ClientRecordHeader.bytes3 (h : ClientRecordHeader) : Bytes :=
  UInt8.ofNat h.headerContentType.code :: h.version

theorem ClientRecordHeader.bytes3_length (h : ClientRecordHeader) : h.bytes3.length = 3 := by
  rcases h with (_ | _) | (_ | _) | _ <;> rfl

theorem ClientRecordHeader.bytes3_encrypted {h : ClientRecordHeader} (he : h.isEncrypted = true) :
    h.bytes3 = [23, 3, 3] := by
  rcases h with (_ | _) | (_ | _) | _ <;> first | rfl | cases he

/-- The bytes of a finished record: the plain fragment, or the AEAD of fragment and trailer. -/
def recordBytes (w : WriteKS) (h : ClientRecordHeader) (content : Bytes) : Bytes :=
  if h.isEncrypted then
    let inner := content ++ [UInt8.ofNat h.trailerContentType.code]
    let aad := [23, 3, 3] ++ be16 (inner.length + tagLen)
    aad ++ (S.sealCt w.st.key (w.st.nonce S) aad inner ++ S.sealTag w.st.key (w.st.nonce S) aad inner)
  else h.bytes3 ++ (be16 content.length ++ content)

/-- Room needed in the write buffer for a record with this content. -/
def recordRoom (h : ClientRecordHeader) (content : Bytes) : Nat :=
  5 + content.length + (if h.isEncrypted then 17 else 0)

theorem recordBytes_length (hS : S.Sized) (w : WriteKS) (h : ClientRecordHeader) (content : Bytes) :
    (recordBytes S w h content).length = recordRoom h content := by
  unfold recordBytes recordRoom
  split
  · simp [hS.sealCt_length, hS.sealTag_length, tagLen, be16]; omega
  · simp [be16, h.bytes3_length]; omega

/-- The write buffer holds an open record with header `h` and content `content`. -/
structure WB.Holds (w : WB) (h : ClientRecordHeader) (content : Bytes) : Prop where
  header : w.header = some h
  pos : w.pos = 5 + content.length
  shape : ∃ x y rest, w.buffer = h.bytes3 ++ ([x, y] ++ (content ++ rest))

/-- The write buffer holds nothing. -/
structure WB.Idle (w : WB) : Prop where
  header : w.header = none
  pos : w.pos = 0

theorem WB.Holds.le {w : WB} {h : ClientRecordHeader} {content : Bytes} (hw : w.Holds h content) :
    5 + content.length ≤ w.buffer.length := by
  obtain ⟨_, _, x, y, rest, hb⟩ := hw
  rw [hb]; simp [h.bytes3_length]; omega

theorem headerEncode_appends (h : ClientRecordHeader) : Appends h.encode h.bytes3 () := by
  have := (Appends.push (UInt8.ofNat h.headerContentType.code)).orEncodeError.seq
    (Appends.extend h.version).orEncodeError
  exact this

theorem rewind_zero (b : Bytes) (l : Nat) : CB.rewind ⟨b, 0, l⟩ = (.ok (), ⟨b, 0, l⟩) := by
  simp [CB.rewind, CB.setOffset]

theorem withBuffer'_ok {op : Enc Unit} {w : WB} {c : CB} (h : op (CB.wrapWithPos w.buffer w.pos) = (.ok (), c)) :
    WB.withBuffer' op w = (.ok (), { w with buffer := c.buf, pos := c.len }) := by
  unfold WB.withBuffer' WB.withBuffer onFst
  simp only [h]

theorem withBuffer'_err {op : Enc Unit} {w : WB} {c : CB} {e : TlsError}
    (h : op (CB.wrapWithPos w.buffer w.pos) = (.err e, c)) :
    WB.withBuffer' op w = (.err e, { w with buffer := c.buf }) := by
  unfold WB.withBuffer' WB.withBuffer onFst
  simp only [h]

/-- `start_record` on an idle buffer. -/
theorem startRecord_idle (h : ClientRecordHeader) (w : WB) (hw : w.Idle) (hl : 5 ≤ w.buffer.length) :
    ∃ w', WB.startRecord h w = (.ok (), w') ∧ w'.Holds h [] ∧ w'.buffer.length = w.buffer.length := by
  obtain ⟨buf, pos, hdr⟩ := w
  obtain ⟨h1, h2⟩ := hw
  simp only at h1 h2 hl
  subst h1 h2
  have ha := (headerEncode_appends h).seq ((Appends.pushU16 0))
  obtain ⟨g, _⟩ := ha 0 0 [] buf rfl
  have hlen : (h.bytes3 ++ be16 0).length = 5 := by simp [h.bytes3_length, be16]
  rw [hlen] at g
  have g := g (by omega)
  simp only [List.nil_append, Nat.zero_add] at g
  refine ⟨⟨h.bytes3 ++ be16 0 ++ buf.drop 5, 5, some h⟩, ?_, ⟨rfl, rfl, 0, 0, buf.drop 5, ?_⟩, ?_⟩
  · unfold WB.startRecord
    rw [M.get_bind]
    simp only [Option.isSome_none, Bool.false_eq_true, if_false]
    rw [M.modify_bind]
    rw [withBuffer'_ok (c := ⟨h.bytes3 ++ be16 0 ++ buf.drop 5, 0, 5⟩)]
    simp only [CB.wrapWithPos]
    rw [← bind_assoc, M.bind_ok g, rewind_zero]
  · simp [be16]
  · simp [h.bytes3_length, be16]; omega

theorem startRecord_busy (h : ClientRecordHeader) (w : WB) (hw : w.header.isSome = true) :
    WB.startRecord h w = (.panic, w) := by
  unfold WB.startRecord
  rw [M.get_bind, if_pos hw]; rfl

/-- `encrypt` on a window after `A` with content `inner` and `B` bytes behind it. -/
theorem encrypt_run (hS : S.Sized) (w : WriteKS) (A inner B : Bytes) (hB : tagLen ≤ B.length) :
    encrypt S w ⟨A ++ (inner ++ B), A.length, inner.length⟩ =
      (.ok (), ⟨A ++ (S.sealCt w.st.key (w.st.nonce S) ([23, 3, 3] ++ be16 (inner.length + tagLen)) inner ++
          (S.sealTag w.st.key (w.st.nonce S) ([23, 3, 3] ++ be16 (inner.length + tagLen)) inner ++ B.drop tagLen)),
        A.length, inner.length + tagLen⟩) := by
  unfold encrypt
  rw [M.get_bind]
  rw [if_neg (by simp [CB.capacity]; omega)]
  rw [M.modify_bind]
  have hslice : CB.asSlice ⟨A ++ (inner ++ B), A.length, inner.length⟩ = inner := by
    simp [CB.asSlice]
  simp only [hslice]
  generalize haad : [23, 3, 3] ++ be16 (inner.length + tagLen) = aad
  generalize hct : S.sealCt w.st.key (w.st.nonce S) aad inner = ct
  have hctl : ct.length = inner.length := by rw [← hct, hS.sealCt_length]
  generalize htag : S.sealTag w.st.key (w.st.nonce S) aad inner = tag
  have htl : tag.length = tagLen := by rw [← htag, hS.sealTag_length]
  have hsp : CB.splice (A ++ (inner ++ B)) A.length ct = (A ++ ct) ++ B := by
    rw [splice_at_length _ _ _ _ rfl, hctl, List.drop_left, List.append_assoc]
  rw [hsp]
  obtain ⟨g, _⟩ := Appends.extend tag A.length inner.length (A ++ ct) B (by simp [hctl])
  rw [M.mapErr]
  rw [g (by omega)]
  simp [Res.mapErr, htl]

theorem encrypt_short (w : WriteKS) (hS : S.Sized) (A inner B : Bytes) (hB : B.length < tagLen) :
    ∃ e B', encrypt S w ⟨A ++ (inner ++ B), A.length, inner.length⟩ = (.err e, B') ∧
      B'.buf.length = (A ++ (inner ++ B)).length := by
  unfold encrypt
  rw [M.get_bind]
  by_cases hc : inner.length + tagLen > CB.capacity ⟨A ++ (inner ++ B), A.length, inner.length⟩
  · rw [if_pos hc]
    exact ⟨_, _, rfl, rfl⟩
  · rw [if_neg hc, M.modify_bind]
    have hslice : CB.asSlice ⟨A ++ (inner ++ B), A.length, inner.length⟩ = inner := by
      simp [CB.asSlice]
    simp only [hslice]
    generalize [23, 3, 3] ++ be16 (inner.length + tagLen) = aad
    generalize hct : S.sealCt w.st.key (w.st.nonce S) aad inner = ct
    have hctl : ct.length = inner.length := by rw [← hct, hS.sealCt_length]
    generalize htag : S.sealTag w.st.key (w.st.nonce S) aad inner = tag
    have htl : tag.length = tagLen := by rw [← htag, hS.sealTag_length]
    have hsp : CB.splice (A ++ (inner ++ B)) A.length ct = (A ++ ct) ++ B := by
      rw [splice_at_length _ _ _ _ rfl, hctl, List.drop_left, List.append_assoc]
    rw [hsp]
    obtain ⟨_, g⟩ := Appends.extend tag A.length inner.length (A ++ ct) B (by simp [hctl])
    obtain ⟨e, B', l', he, hl, h3, h4, h5⟩ := g (by omega)
    rw [M.mapErr, h5]
    refine ⟨_, _, rfl, ?_⟩
    simp [hl, hctl]

/-- `close_record` on an open record that fits. -/
theorem closeRecord_ok (hS : S.Sized) (wks : WriteKS) (w : WB) (h : ClientRecordHeader) (content : Bytes)
    (hw : w.Holds h content) (hfit : recordRoom h content ≤ w.buffer.length) :
    ∃ w', WB.closeRecord S wks w = (.ok (recordBytes S wks h content), w') ∧ w'.Idle ∧
      w'.buffer.length = w.buffer.length := by
  obtain ⟨buf, pos, hdr⟩ := w
  obtain ⟨h1, h2, x, y, rest, h3⟩ := hw
  simp only at h1 h2 h3 hfit
  subst h1 h2 h3
  have h3l := h.bytes3_length
  unfold WB.closeRecord
  rw [M.get_bind]
  simp only
  rw [M.modify_bind]
  cases he : h.isEncrypted with
  | false =>
    simp only [Bool.false_eq_true, if_false]
    rw [M.bind_ok (withBuffer'_ok (c := ⟨h.bytes3 ++ ([x, y] ++ (content ++ rest)), 0, 5 + content.length⟩) rfl)]
    rw [M.get_bind]
    simp only
    rw [if_neg (by simp [h3l]; omega), M.modify_bind, M.get_bind, M.modify_bind]
    refine ⟨⟨((h.bytes3 ++ ([x, y] ++ (content ++ rest))).set 3
      (UInt8.ofNat ((5 + content.length - 5) / 256))).set 4 (UInt8.ofNat (5 + content.length - 5)), 0, none⟩,
      ?_, ⟨rfl, rfl⟩, ?_⟩
    · simp only [M.pure_apply, Prod.mk.injEq, and_true, Res.ok.injEq]
      rw [recordBytes, he]
      simp only [Bool.false_eq_true, if_false, Nat.add_sub_cancel_left, be16]
      rcases hb : h.bytes3 with _ | ⟨a, _ | ⟨b, _ | ⟨c, _ | ⟨d, t⟩⟩⟩⟩ <;> simp [hb] at h3l
      simp [Nat.add_comm 5 content.length]
    · simp [h3l]
  | true =>
    simp only [if_true]
    simp only [recordRoom, he, if_true, List.length_append, List.length_cons, List.length_nil, h3l] at hfit
    obtain ⟨t, rest', hr⟩ : ∃ t rest', rest = t :: rest' := by
      cases rest with
      | nil => simp at hfit; omega
      | cons t r => exact ⟨t, r, rfl⟩
    subst hr
    have hrl : tagLen ≤ rest'.length := by simp [tagLen] at hfit ⊢; omega
    generalize htr : UInt8.ofNat h.trailerContentType.code = tr
    have hpush : (CB.push tr).orEncodeError
        ⟨h.bytes3 ++ ([x, y] ++ (content ++ t :: rest')), 0, 5 + content.length⟩ =
        (.ok (), ⟨h.bytes3 ++ ([x, y] ++ (content ++ tr :: rest')), 0, 6 + content.length⟩) := by
      obtain ⟨g, _⟩ := (Appends.push tr).orEncodeError 0 (5 + content.length)
        (h.bytes3 ++ ([x, y] ++ content)) (t :: rest') (by simp [h3l]; omega)
      have g := g (by simp)
      simp only [List.append_assoc, List.singleton_append, List.length_singleton, List.drop_one, List.tail_cons] at g
      rw [g]
      simp; omega
    have hset : CB.setOffset 5 ⟨h.bytes3 ++ ([x, y] ++ (content ++ tr :: rest')), 0, 6 + content.length⟩ =
        (.ok (), ⟨(h.bytes3 ++ [x, y]) ++ ((content ++ [tr]) ++ rest'), (h.bytes3 ++ [x, y]).length,
          (content ++ [tr]).length⟩) := by
      unfold CB.setOffset
      rw [if_pos (by simp only; omega)]
      simp [h3l]; omega
    have henc := encrypt_run S hS wks (h.bytes3 ++ [x, y]) (content ++ [tr]) rest' hrl
    generalize hct : S.sealCt wks.st.key (wks.st.nonce S)
      ([23, 3, 3] ++ be16 ((content ++ [tr]).length + tagLen)) (content ++ [tr]) = ct at henc
    have hctl : ct.length = content.length + 1 := by rw [← hct, hS.sealCt_length]; simp
    generalize htag : S.sealTag wks.st.key (wks.st.nonce S)
      ([23, 3, 3] ++ be16 ((content ++ [tr]).length + tagLen)) (content ++ [tr]) = tag at henc
    have htl : tag.length = tagLen := by rw [← htag, hS.sealTag_length]
    have hop : (do
        (CB.push tr).orEncodeError
        CB.setOffset 5
        encrypt S wks
        CB.rewind : Enc Unit) (CB.wrapWithPos (h.bytes3 ++ ([x, y] ++ (content ++ t :: rest'))) (5 + content.length)) =
        (.ok (), ⟨(h.bytes3 ++ [x, y]) ++ (ct ++ (tag ++ rest'.drop tagLen)), 0, 22 + content.length⟩) := by
      unfold CB.wrapWithPos
      rw [M.bind_ok hpush, M.bind_ok hset, M.bind_ok henc]
      simp [CB.rewind, CB.setOffset, h3l, tagLen]; omega
    rw [M.bind_ok (withBuffer'_ok hop), M.get_bind]
    simp only
    rw [if_neg (by simp [h3l, hctl, htl, tagLen]; omega), M.modify_bind, M.get_bind, M.modify_bind]
    refine ⟨⟨((h.bytes3 ++ [x, y] ++ (ct ++ (tag ++ rest'.drop tagLen))).set 3
      (UInt8.ofNat ((22 + content.length - 5) / 256))).set 4 (UInt8.ofNat (22 + content.length - 5)), 0, none⟩,
      ?_, ⟨rfl, rfl⟩, ?_⟩
    · simp only [M.pure_apply, Prod.mk.injEq, and_true, Res.ok.injEq]
      rw [recordBytes, he]
      simp only [if_true, htr, hct, htag]
      rw [ClientRecordHeader.bytes3_encrypted he]
      rw [show 22 + content.length - 5 = (content ++ [tr]).length + tagLen by simp [tagLen]; omega]
      have : (23 :: 3 :: 3 :: UInt8.ofNat (((content ++ [tr]).length + tagLen) / 256) ::
          UInt8.ofNat ((content ++ [tr]).length + tagLen) :: (ct ++ tag) : Bytes).length = 22 + content.length := by
        simp [hctl, htl, tagLen]; omega
      simp only [be16, List.cons_append, List.nil_append, List.set_cons_succ, List.set_cons_zero]
      rw [← this, ← List.append_assoc ct]
      simp only [← List.cons_append]
      rw [List.take_left]
    · simp [h3l, hctl, htl, tagLen] at hrl ⊢; omega

/-- `close_record` on an encrypted record that does not fit. -/
theorem closeRecord_short (hS : S.Sized) (wks : WriteKS) (w : WB) (h : ClientRecordHeader) (content : Bytes)
    (hw : w.Holds h content) (hfit : w.buffer.length < recordRoom h content) :
    ∃ e w', WB.closeRecord S wks w = (.err e, w') ∧ w'.header = none ∧ w'.pos = w.pos ∧
      w'.buffer.length = w.buffer.length := by
  have hle := hw.le
  obtain ⟨buf, pos, hdr⟩ := w
  obtain ⟨h1, h2, x, y, rest, h3⟩ := hw
  simp only at h1 h2 h3 hfit hle
  subst h1 h2 h3
  have h3l := h.bytes3_length
  unfold WB.closeRecord
  rw [M.get_bind]
  simp only
  rw [M.modify_bind]
  cases he : h.isEncrypted with
  | false =>
    simp only [recordRoom, he, Bool.false_eq_true, if_false] at hfit
    omega
  | true =>
    simp only [if_true]
    simp only [recordRoom, he, if_true, List.length_append, List.length_cons, List.length_nil, h3l] at hfit
    generalize htr : UInt8.ofNat h.trailerContentType.code = tr
    obtain ⟨g1, g2⟩ := (Appends.push tr).orEncodeError 0 (5 + content.length)
        (h.bytes3 ++ ([x, y] ++ content)) rest (by simp [h3l]; omega)
    cases rest with
    | nil =>
      obtain ⟨e, B', l', _, hl, _, _, g⟩ := g2 (by simp)
      simp only [List.append_assoc] at g
      rw [M.bind_err (withBuffer'_err (c := ⟨_, 0, l'⟩) (by unfold CB.wrapWithPos; rw [M.bind_err g]))]
      refine ⟨_, _, rfl, rfl, rfl, ?_⟩
      simp [hl]
    | cons t rest' =>
      have g := g1 (by simp)
      simp only [List.append_assoc, List.singleton_append, List.length_singleton, List.drop_one, List.tail_cons] at g
      have hset : CB.setOffset 5 ⟨h.bytes3 ++ ([x, y] ++ (content ++ tr :: rest')), 0, 5 + content.length + 1⟩ =
          (.ok (), ⟨(h.bytes3 ++ [x, y]) ++ ((content ++ [tr]) ++ rest'), (h.bytes3 ++ [x, y]).length,
            (content ++ [tr]).length⟩) := by
        unfold CB.setOffset
        rw [if_pos (by simp only; omega)]
        simp [h3l]; omega
      obtain ⟨e, B', henc, hl⟩ := encrypt_short S wks hS (h.bytes3 ++ [x, y]) (content ++ [tr]) rest'
        (by simp [tagLen] at hfit ⊢; omega)
      rw [M.bind_err (withBuffer'_err (c := B') (e := e)
        (by unfold CB.wrapWithPos; rw [M.bind_ok g, M.bind_ok hset, M.bind_err henc]))]
      refine ⟨_, _, rfl, rfl, rfl, ?_⟩
      simp [hl]

theorem closeRecord_none (wks : WriteKS) (w : WB) (h : w.header = none) :
    WB.closeRecord S wks w = (.panic, w) := by
  unfold WB.closeRecord
  rw [M.get_bind, h]; rfl

end ETls
